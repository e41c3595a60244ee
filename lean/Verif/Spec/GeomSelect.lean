import Verif.Model.GeomSelect
/-!
# What selecting by a geometry should do
-/
namespace Ocgis.GeomSelect

/-- What is assumed of `shapely` and `rtree`: `inner a b` says that the interiors of the geometries meet.  Geometries
touch when they meet but their interiors do not; a geometry of several parts meets what one of its parts meets; the
index yields everything that meets the geometry. -/
structure Lawful {G : Type} (s : Shapely G) (inner : G → G → Bool) : Prop where
  touches : ∀ a b, s.touches a b = (s.intersects a b && !inner a b)
  inner_meets : ∀ a b, inner a b = true → s.intersects a b = true
  parts : ∀ g ps, s.parts g = some ps → ∀ x, s.intersects g x = ps.any fun p => s.intersects p x
  rtree : ∀ l g k x, l[k]? = some x → s.intersects g x = true → k ∈ s.rtree l g

/-- The interior of a geometry is that of its parts (so for polygons and points; two lines that share an end have it in
the interior of the whole, by the rule that ends count modulo two). -/
def PartsAgree {G : Type} (s : Shapely G) (inner : G → G → Bool) (g : G) : Prop :=
  ∀ ps, s.parts g = some ps → ∀ x, inner g x = ps.any fun p => inner p x

/-- The geometry `x` is chosen by `g`: they meet, and do not only touch unless touching is enough. -/
def Chosen {G : Type} (s : Shapely G) (g : G) (keep : Bool) (x : G) : Prop :=
  s.intersects g x = true ∧ (keep = true ∨ s.touches g x = false)

/-- The element at a position is selected: it is not masked, and chosen. -/
def Selected {G : Type} (s : Shapely G) (v : GVar G) (g : G) (keep : Bool) (r c : Nat) : Prop :=
  v.masked r c = false ∧ Chosen s g keep (v.geom r c)

/-- A position lies in a rectangle. -/
def Rect.Has (q : Rect) (r c : Nat) : Prop := q.r0 ≤ r ∧ r < q.r1 ∧ q.c0 ≤ c ∧ c < q.c1

/-- `q` is the smallest rectangle that has all positions of an `n x m` array satisfying `P`. -/
structure Smallest (q : Rect) (n m : Nat) (P : Nat → Nat → Prop) : Prop where
  inside : q.r0 < q.r1 ∧ q.r1 ≤ n ∧ q.c0 < q.c1 ∧ q.c1 ≤ m
  has : ∀ r c, r < n → c < m → P r c → q.Has r c
  least : ∀ q' : Rect, (∀ r c, r < n → c < m → P r c → q'.Has r c) → ∀ r c, q.Has r c → q'.Has r c

/-- The processes hold the blocks of the variable: every block lies in it and has its geometries and mask, and every
element is on some process. -/
structure Blocks {G : Type} (ps : List (Rank G)) (v : GVar G) : Prop where
  oneD : ∀ p ∈ ps, p.var.oneD = v.oneD
  inside : ∀ p ∈ ps, p.r0 + p.var.nrow ≤ v.nrow ∧ p.c0 + p.var.ncol ≤ v.ncol
  geom : ∀ p ∈ ps, ∀ r c, r < p.var.nrow → c < p.var.ncol → p.var.geom r c = v.geom (p.r0 + r) (p.c0 + c)
  mask : ∀ p ∈ ps, ∀ r c, r < p.var.nrow → c < p.var.ncol → p.var.masked r c = v.masked (p.r0 + r) (p.c0 + c)
  cover : ∀ r c, r < v.nrow → c < v.ncol →
    ∃ p ∈ ps, p.r0 ≤ r ∧ r < p.r0 + p.var.nrow ∧ p.c0 ≤ c ∧ c < p.c0 + p.var.ncol

/-- The position lies on the process. -/
def Rank.Holds {G : Type} (p : Rank G) (r c : Nat) : Prop :=
  p.r0 ≤ r ∧ r < p.r0 + p.var.nrow ∧ p.c0 ≤ c ∧ c < p.c0 + p.var.ncol

/-- A part `o` of the result comes from process `p`: placed in the slice `q` it holds exactly the elements of `p` that
lie in the slice; those that are not masked are exactly the selected ones, and hold `f` of their geometry; the others
hold their geometry. -/
structure PartOf {G : Type} (s : Shapely G) (v : GVar G) (g : G) (keep : Bool) (f : G → G) (q : Rect) (p o : Rank G) :
    Prop where
  holds : ∀ r c, (q.Has r c ∧ p.Holds r c) ↔
    q.r0 + o.r0 ≤ r ∧ r < q.r0 + o.r0 + o.var.nrow ∧ q.c0 + o.c0 ≤ c ∧ c < q.c0 + o.c0 + o.var.ncol
  mask : ∀ i j, i < o.var.nrow → j < o.var.ncol →
    (o.var.masked i j = false ↔ Selected s v g keep (q.r0 + o.r0 + i) (q.c0 + o.c0 + j))
  selected : ∀ i j, i < o.var.nrow → j < o.var.ncol → Selected s v g keep (q.r0 + o.r0 + i) (q.c0 + o.c0 + j) →
    o.var.geom i j = f (v.geom (q.r0 + o.r0 + i) (q.c0 + o.c0 + j))
  other : ∀ i j, i < o.var.nrow → j < o.var.ncol → ¬ Selected s v g keep (q.r0 + o.r0 + i) (q.c0 + o.c0 + j) →
    o.var.geom i j = v.geom (q.r0 + o.r0 + i) (q.c0 + o.c0 + j)

/-- The parts of the result are those of the processes; a process with nothing in the slice is empty. -/
def Parts {G : Type} (s : Shapely G) (v : GVar G) (g : G) (keep : Bool) (f : G → G) (q : Rect) (ps : List (Rank G))
    (outs : List (Option (Rank G))) : Prop :=
  outs.length = ps.length ∧ ∀ (k : Nat) (p : Rank G), ps[k]? = some p →
    (outs[k]? = some none ∧ ¬ ∃ r c, q.Has r c ∧ p.Holds r c) ∨ ∃ o, outs[k]? = some (some o) ∧ PartOf s v g keep f q p o

/-- No process of a one-dimensional variable has all of its elements selected. -/
def Varied {G : Type} (s : Shapely G) (v : GVar G) (g : G) (keep : Bool) (ps : List (Rank G)) : Prop :=
  v.oneD = false ∨ ∀ p ∈ ps, (∃ r c, p.Holds r c ∧ ¬ Selected s v g keep r c) ∨
    ∀ r c, p.Holds r c → ¬ Selected s v g keep r c

/-- Row by row, the position `a` is before `b`. -/
def Before (a b : Nat × Nat) : Prop := a.1 < b.1 ∨ (a.1 = b.1 ∧ a.2 < b.2)

/-- A cell of a grid is selected. -/
def CellSelected {G : Type} (s : Shapely G) (v : Grid G) (g : G) (keep : Bool) (r c : Nat) : Prop :=
  v.masked r c = false ∧ Chosen s g keep (v.cell r c)

/-- An optional mask at a position. -/
def maskAt (m : Option (Nat → Nat → Bool)) (r c : Nat) : Bool := m.elim false fun f => f r c

end Ocgis.GeomSelect
