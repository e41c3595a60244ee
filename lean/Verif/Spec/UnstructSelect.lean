import Verif.Spec.GeomSelect
import Verif.Model.UnstructSelect
/-!
# What selecting from points and polygons should do
-/
namespace Ocgis.UnstructSelect
open Ocgis.GeomSelect

/-- The parts of a geometry, itself when it has none. -/
def partsOf {G : Type} (s : Shapely G) (g : G) : List G := (s.parts g).getD [g]

/-- The mask has one value for each element. -/
def MaskSized {G : Type} (c : Coords G) : Prop := ∀ l, c.mask = some l → l.length = c.n

/-- One value for each element. -/
structure Sized {G : Type} (c : Coords G) : Prop where
  x : c.x.length = c.n
  y : c.y.length = c.n
  z : ∀ l, c.z = some l → l.length = c.n
  mask : MaskSized c

/-- Is the element masked? -/
def Coords.masked {G : Type} (c : Coords G) (k : Nat) : Bool := (c.mask.getD []).getD k false

/-- The elements are the points at the coordinates: element `k` is at node `k`. -/
def AtNodes {G : Type} (pt : Rat → Rat → G) (c : Coords G) : Prop :=
  c.points = true ∧ ∀ k x y, c.x[k]? = some x → c.y[k]? = some y → c.geom k = pt x y

/-- What is assumed of the boxes: they are not inside out, and a point that a geometry meets lies in its box. -/
structure Boxed {G : Type} (s : Shapely G) (f : Frame G) (pt : Rat → Rat → G) : Prop where
  order : ∀ p, (f.bounds p).minx ≤ (f.bounds p).maxx ∧ (f.bounds p).miny ≤ (f.bounds p).maxy
  inside : ∀ p x y, s.intersects p (pt x y) = true →
    (f.bounds p).minx ≤ x ∧ x ≤ (f.bounds p).maxx ∧ (f.bounds p).miny ≤ y ∧ y ≤ (f.bounds p).maxy

/-- Points in the interior of the geometry lie strictly in its box: so for polygons, not for points or for lines along
an axis. -/
def Thick {G : Type} (f : Frame G) (inner : G → G → Bool) (pt : Rat → Rat → G) (p : G) : Prop :=
  ∀ x y, inner p (pt x y) = true →
    (f.bounds p).minx < x ∧ x < (f.bounds p).maxx ∧ (f.bounds p).miny < y ∧ y < (f.bounds p).maxy

/-- Between two values, or strictly. -/
def Between (keep : Bool) (lo hi v : Rat) : Prop := if keep then lo ≤ v ∧ v ≤ hi else lo < v ∧ v < hi

/-- Node `k` lies in the box of the part, and in its range of third coordinates if it has one. -/
def InBox {G : Type} (f : Frame G) (c : Coords G) (keep : Bool) (p : G) (k : Nat) : Prop :=
  (∃ x, c.x[k]? = some x ∧ Between keep (f.bounds p).minx (f.bounds p).maxx x) ∧
  (∃ y, c.y[k]? = some y ∧ Between keep (f.bounds p).miny (f.bounds p).maxy y) ∧
  ∀ lo hi, f.zbounds p = some (some (lo, hi)) → ∃ l z, c.z = some l ∧ l[k]? = some z ∧ Between keep lo hi z

/-- Node `k` lies in the box of some part. -/
def Near {G : Type} (s : Shapely G) (f : Frame G) (c : Coords G) (keep : Bool) (g : G) (k : Nat) : Prop :=
  ∃ p ∈ partsOf s g, InBox f c keep p k

/-- The parts of the geometry have no third coordinate, and there are some. -/
def Flat {G : Type} (s : Shapely G) (f : Frame G) (g : G) : Prop :=
  partsOf s g ≠ [] ∧ ∀ p ∈ partsOf s g, f.zbounds p = none

/-- The parts of the geometry have a proper range of third coordinates, and so has the object. -/
def Solid {G : Type} (s : Shapely G) (f : Frame G) (c : Coords G) (g : G) : Prop :=
  partsOf s g ≠ [] ∧ c.z ≠ none ∧ ∀ p ∈ partsOf s g, ∃ lo hi, f.zbounds p = some (some (lo, hi)) ∧ lo ≤ hi

/-- `l` has exactly the elements satisfying `P`, in order. -/
def Exactly (l : List Nat) (n : Nat) (P : Nat → Prop) : Prop :=
  l.Pairwise (· < ·) ∧ ∀ k, k ∈ l ↔ k < n ∧ P k

/-- The result holds exactly the elements satisfying `P`, in order; its mask is that of the elements; the slice tells
which they are. -/
structure Holds {G : Type} (c : Coords G) (o : Out G) (P : Nat → Prop) : Prop where
  kept : Exactly o.kept c.n P
  mask : o.mask = c.mask.map fun _ => o.kept.map c.masked
  slice : o.slice.length = c.n ∧ ∀ k, k < c.n → (o.slice[k]? = some true ↔ P k)

/-- The element is not masked, and the geometry chooses it. -/
def Selected {G : Type} (s : Shapely G) (c : Coords G) (g : G) (keep : Bool) (k : Nat) : Prop :=
  c.masked k = false ∧ Chosen s g keep (c.geom k)

/-- The object has a mask, and some element on this or another process is masked. -/
def SomeMasked {G : Type} (c : Coords G) : Prop := ∃ m, c.mask = some m ∧ (true ∈ m ∨ c.elsewhere = true)

end Ocgis.UnstructSelect
