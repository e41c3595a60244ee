import Verif.Proofs.GeomSelect
/-!
# C87: selecting from geometry variables and grids by a geometry
-/
namespace Ocgis.Props
open Ocgis Ocgis.GeomSelect

/-! ## A library for examples: segments of a line -/

/-- Two segments meet. -/
def segMeet (p q : Int × Int) : Bool := decide (p.1 ≤ q.2) && decide (q.1 ≤ p.2)

/-- The interiors of two segments meet. -/
def segInner (p q : Int × Int) : Bool := decide (p.1 < q.2) && decide (q.1 < p.2)

/-- The point is an end of an odd number of segments. -/
def oddEnd (g : List (Int × Int)) (a : Int) : Bool := (g.filter fun p => p.1 == a || p.2 == a).length % 2 == 1

/-- The interiors meet; a point is a segment with equal ends. -/
def lineInner (g x : List (Int × Int)) : Bool :=
  g.any fun p => x.any fun q => segMeet p q && (segInner p q || (q.1 == q.2 && !oddEnd g q.1))

/-- Lists of segments, with the segments as parts when there are several. -/
def lines : Shapely (List (Int × Int)) where
  intersects := fun g x => g.any fun p => x.any fun q => segMeet p q
  touches := fun g x => (g.any fun p => x.any fun q => segMeet p q) && !lineInner g x
  intersection := fun x g => x.flatMap fun q => (g.filter (segMeet q)).map fun p => (max q.1 p.1, min q.2 p.2)
  distance := fun g x => (((g.headD (0, 0)).1 - (x.headD (0, 0)).1).natAbs : Nat)
  centroid := id
  buffer := fun g => g.map fun p => (p.1 - 1, p.2 + 1)
  parts := fun g => if g.length ≤ 1 then none else some (g.map fun p => [p])
  rtree := fun l g => (List.range l.length).filter fun k =>
    ((l[k]?).getD []).any fun q => g.any fun p => segMeet p q

theorem lines_lawful : Lawful lines lineInner where
  touches := fun a b => rfl
  inner_meets := fun a b h => by
    simp only [lineInner, List.any_eq_true, Bool.and_eq_true] at h
    obtain ⟨p, hp, q, hq, h, -⟩ := h
    simp only [lines, List.any_eq_true]
    exact ⟨p, hp, q, hq, h⟩
  parts := fun g ps h x => by
    simp only [lines] at h ⊢
    split at h
    · cases h
    · cases h
      induction g with
      | nil => rfl
      | cons p g ih => simp [List.any_map, Function.comp_def]
  rtree := fun l g k x hk h => by
    simp only [lines, List.any_eq_true, List.mem_filter, List.mem_range] at h ⊢
    refine ⟨(List.getElem?_eq_some_iff.mp hk).1, ?_⟩
    rw [hk]
    obtain ⟨p, hp, q, hq, hm⟩ := h
    exact ⟨q, hq, p, hp, hm⟩

/-- Segments in two rows and three columns: `[10 r + 2 c, 10 r + 2 c + 2]`; the first one is masked. -/
def board : GVar (List (Int × Int)) :=
  ⟨false, 2, 3, fun r c => [(10 * r + 2 * c, 10 * r + 2 * c + 2)], some fun r c => r == 0 && c == 0⟩

/-- The same, by columns on two processes. -/
def boardParts : List (Rank (List (Int × Int))) :=
  [⟨0, 0, board.slice ⟨0, 2, 0, 2⟩⟩, ⟨0, 2, board.slice ⟨0, 2, 2, 3⟩⟩]

theorem board_blocks : Blocks boardParts board where
  oneD := by decide
  inside := by decide
  geom := by
    intro p hp r c _ _
    simp only [boardParts, List.mem_cons, List.mem_nil_iff, or_false] at hp
    rcases hp with rfl | rfl <;> rfl
  mask := by
    intro p hp r c _ _
    simp only [boardParts, List.mem_cons, List.mem_nil_iff, or_false] at hp
    rcases hp with rfl | rfl <;> rfl
  cover := by
    intro r c hr hc
    simp only [board] at hr hc
    by_cases h : c < 2
    · exact ⟨⟨0, 0, board.slice ⟨0, 2, 0, 2⟩⟩, by simp [boardParts], by simp [GVar.slice]; omega⟩
    · exact ⟨⟨0, 2, board.slice ⟨0, 2, 2, 3⟩⟩, by simp [boardParts], by simp [GVar.slice]; omega⟩

/-- A variable of one dimension. -/
def row (l : List (List (Int × Int))) : GVar (List (Int × Int)) := ⟨true, l.length, 1, fun r _ => l.getD r [], none⟩

/-! ## The mask -/

/-- C87: without an index, for every geometry variable and hint mask (by default the mask of the variable), an element
stays unmasked exactly when the hint does not exclude it and its geometry is chosen. -/
theorem C87_mask {G : Type} (s : Shapely G) (v : GVar G) (g : G) (keep : Bool) (hint : Option (Nat → Nat → Bool))
    (r c : Nat) (hr : r < v.nrow) (hc : c < v.ncol) :
    maskFromIntersects s v g false keep hint r c = false ↔
      (hint.getD v.masked) r c = false ∧ Chosen s g keep (v.geom r c) := by
  rw [mask_plain s v g keep hint r c hr hc, Bool.or_eq_false_iff, not_excluded]

example : maskFromIntersects lines board [(3, 11)] false false none 0 1 = false ∧
    maskFromIntersects lines board [(3, 11)] false false none 0 0 = true ∧
    maskFromIntersects lines board [(3, 12)] false false none 1 1 = true ∧
    maskFromIntersects lines board [(3, 12)] false true none 1 1 = false := by decide +kernel

/-- C87 (part): the mask is the same with an index as without, for every geometry whose interior is that of its parts,
and for every geometry when touching is enough.  For lines that share ends it is not
(`C87_index_counterexample`). -/
theorem C87_index_partial {G : Type} (s : Shapely G) (inner : G → G → Bool) (hl : Lawful s inner) (v : GVar G) (g : G)
    (keep : Bool) (hg : keep = true ∨ PartsAgree s inner g) (hint : Option (Nat → Nat → Bool))
    (r c : Nat) (hr : r < v.nrow) (hc : c < v.ncol) :
    maskFromIntersects s v g true keep hint r c = maskFromIntersects s v g false keep hint r c := by
  rw [mask_index s v g keep hint r c hr hc hl.rtree, mask_plain s v g keep hint r c hr hc,
    parts_selects s inner hl g keep hg]
  congr 1
  have a := selects_iff s g keep (v.geom r c)
  have b := not_excluded s g keep (v.geom r c)
  cases h1 : selects s g keep (v.geom r c) <;> cases h2 : excluded s g keep (v.geom r c) <;> simp_all

theorem apart_agree : PartsAgree lines lineInner [(3, 5), (7, 9)] := by
  intro ps h x
  simp only [lines] at h
  rw [if_neg (by decide)] at h
  cases h
  simp only [lineInner, List.any_cons, List.any_nil, List.map_cons, List.map_nil, Bool.or_false]
  congr 1
  · congr 1
    funext q
    by_cases h1 : segMeet (3, 5) q = true
    · simp only [h1, Bool.true_and]
      by_cases h2 : q.1 = q.2
      · have : oddEnd [(3, 5), (7, 9)] q.1 = oddEnd [(3, 5)] q.1 := by
          simp only [segMeet, Bool.and_eq_true, decide_eq_true_eq] at h1
          have e1 : ((7 : Int) == q.1) = false := by simp only [beq_eq_false_iff_ne, ne_eq]; omega
          have e2 : ((9 : Int) == q.1) = false := by simp only [beq_eq_false_iff_ne, ne_eq]; omega
          simp [oddEnd, List.filter_cons, e1, e2]
        rw [this]
      · have : (q.1 == q.2) = false := by simpa using h2
        simp [this]
    · simp [h1]
  · congr 1
    funext q
    by_cases h1 : segMeet (7, 9) q = true
    · simp only [h1, Bool.true_and]
      by_cases h2 : q.1 = q.2
      · have : oddEnd [(3, 5), (7, 9)] q.1 = oddEnd [(7, 9)] q.1 := by
          simp only [segMeet, Bool.and_eq_true, decide_eq_true_eq] at h1
          have e1 : ((3 : Int) == q.1) = false := by simp only [beq_eq_false_iff_ne, ne_eq]; omega
          have e2 : ((5 : Int) == q.1) = false := by simp only [beq_eq_false_iff_ne, ne_eq]; omega
          simp [oddEnd, List.filter_cons, e1, e2]
        rw [this]
      · have : (q.1 == q.2) = false := by simpa using h2
        simp [this]
    · simp [h1]

example : maskFromIntersects lines board [(3, 5), (7, 9)] true false none 0 1 = false :=
  (C87_index_partial lines lineInner lines_lawful board _ false (Or.inr apart_agree) none 0 1 (by decide) (by decide)).trans
    (by decide +kernel)

/-- C87 (defect): two lines that share an end, and a point there.  The point is in the interior of the geometry, so it
is selected without an index; with one it only touches each part, and it is masked. -/
theorem C87_index_counterexample :
    maskFromIntersects lines (row [[(5, 5)], [(0, 1)]]) [(3, 5), (5, 7)] false false none 0 0 = false ∧
    maskFromIntersects lines (row [[(5, 5)], [(0, 1)]]) [(3, 5), (5, 7)] true false none 0 0 = true := by
  decide +kernel

/-! ## Selecting -/

/-- C87 (part): for every geometry variable distributed in blocks over any number of processes, with or without an index,
`get_intersects` raises when no element is selected; otherwise its slice is the smallest rectangle with all
selected elements, each process keeps exactly its elements in it with their geometries, and the elements that are
not masked are exactly the selected ones.  Missing: variables of one dimension with a process all of whose elements
are selected (`C87_all_counterexample`), and hint masks (`C87_hint_counterexample`). -/
theorem C87_select_partial {G : Type} (s : Shapely G) (inner : G → G → Bool) (v : GVar G) (ps : List (Rank G)) (g : G)
    (useIndex keep : Bool) (hb : Blocks ps v) (hv : Varied s v g keep ps)
    (hi : useIndex = true → Lawful s inner ∧ (keep = true ∨ PartsAgree s inner g)) :
    ((∀ r c, r < v.nrow → c < v.ncol → ¬ Selected s v g keep r c) →
      getIntersects s ps g useIndex keep none = .error .emptySubset) ∧
    ((∃ r c, r < v.nrow ∧ c < v.ncol ∧ Selected s v g keep r c) →
      ∃ outs q, getIntersects s ps g useIndex keep none = .ok (outs, q) ∧
        Smallest q v.nrow v.ncol (Selected s v g keep) ∧ Parts s v g keep id q ps outs) :=
  select_spec s inner v ps g useIndex keep hb hv hi

example : ∃ outs q, getIntersects lines boardParts [(3, 11)] false false none = .ok (outs, q) ∧
    Smallest q 2 3 (Selected lines board [(3, 11)] false) ∧
    Parts lines board [(3, 11)] false id q boardParts outs :=
  (C87_select_partial lines lineInner board boardParts [(3, 11)] false false board_blocks (Or.inl rfl) (by simp)).2
    ⟨0, 1, by decide, by decide, by decide, by unfold Chosen; decide +kernel⟩

example : (getIntersects lines boardParts [(3, 11)] false false none).toOption.map (·.2) = some ⟨0, 2, 0, 3⟩ ∧
    (getIntersects lines (whole board) [(3, 5)] false false none).toOption.map (·.2) = some ⟨0, 1, 1, 3⟩ := by
  decide +kernel

/-- C87: whatever the two distributions, the slice is the same. -/
theorem C87_processes {G : Type} (s : Shapely G) (v : GVar G) (ps ps' : List (Rank G)) (g : G) (keep : Bool)
    (hb : Blocks ps v) (hb' : Blocks ps' v) (hv : Varied s v g keep ps) (hv' : Varied s v g keep ps')
    (hsome : ∃ r c, r < v.nrow ∧ c < v.ncol ∧ Selected s v g keep r c) :
    ∃ q outs outs', getIntersects s ps g false keep none = .ok (outs, q) ∧
      getIntersects s ps' g false keep none = .ok (outs', q) := by
  obtain ⟨outs, q, h1, h2, -⟩ := (select_spec s (fun _ _ => false) v ps g false keep hb hv (by simp)).2 hsome
  obtain ⟨outs', q', h1', h2', -⟩ := (select_spec s (fun _ _ => false) v ps' g false keep hb' hv' (by simp)).2 hsome
  have := smallest_unique h2 h2'
  subst this
  exact ⟨q, outs, outs', h1, h1'⟩

theorem whole_blocks {G : Type} (v : GVar G) : Blocks (whole v) v where
  oneD := by simp [whole]
  inside := by simp [whole]
  geom := by simp [whole]
  mask := by simp [whole]
  cover := by
    intro r c hr hc
    exact ⟨⟨0, 0, v⟩, by simp [whole], by simp; omega⟩

example : ∃ q outs outs', getIntersects lines boardParts [(3, 11)] false false none = .ok (outs, q) ∧
    getIntersects lines (whole board) [(3, 11)] false false none = .ok (outs', q) :=
  C87_processes lines board boardParts (whole board) [(3, 11)] false board_blocks (whole_blocks board) (Or.inl rfl)
    (Or.inl rfl) ⟨0, 1, by decide, by decide, by decide, by unfold Chosen; decide +kernel⟩

/-- C87 (defect): when all elements of a variable of one dimension are selected, the selection fails with an
`IndexError`, for every such variable. -/
theorem C87_all_counterexample {G : Type} (s : Shapely G) (v : GVar G) (g : G) (keep : Bool) (h1 : v.oneD = true)
    (hn : 0 < v.nrow) (hc : v.ncol = 1) (hall : ∀ r, r < v.nrow → Selected s v g keep r 0) :
    getIntersects s (whole v) g false keep none = .error .indexError := by
  have hm : ∀ r c, r < v.nrow → c < v.ncol → maskFromIntersects s v g false keep none r c = false := by
    intro r c hr hc'
    have : c = 0 := by omega
    subst this
    exact (mask_selected s (fun _ _ => false) v g false keep (by simp) r 0 hr hc').mpr (hall r hr)
  have hl : localSlice v.oneD v.nrow v.ncol (maskFromIntersects s v g false keep none) = .error .indexError := by
    unfold localSlice
    rw [if_neg, if_pos, if_pos h1]
    · have : ¬ (((List.range v.nrow).map fun r => (List.range v.ncol).map fun c =>
          maskFromIntersects s v g false keep none r c).any fun row => row.any id) = true := by
        rw [any_rows]
        rintro ⟨r, c, hr, hc', h⟩
        rw [hm r c hr hc'] at h
        cases h
      simpa using this
    · rw [all_rows]
      intro h
      have := h 0 0 hn (by omega)
      rw [hm 0 0 hn (by omega)] at this
      cases this
  unfold getIntersects globalSlice whole
  simp only [List.map_cons, List.map_nil, List.mapM_cons, List.mapM_nil, Option.map_none]
  rw [hl]
  rfl

example : getIntersects lines (whole (row [[(0, 2)], [(2, 4)]])) [(1, 3)] false false none = .error .indexError :=
  C87_all_counterexample lines _ _ false rfl (by decide) rfl (by
    intro r hr
    have hr' : r < 2 := hr
    have : r = 0 ∨ r = 1 := by omega
    rcases this with rfl | rfl
    · exact ⟨rfl, by decide +kernel, Or.inr (by decide +kernel)⟩
    · exact ⟨rfl, by decide +kernel, Or.inr (by decide +kernel)⟩)

/-- C87 (defect): a hint mask replaces the mask of the variable in the search.  Here the only element that meets the
geometry is masked; with a hint that excludes nothing the selection does not raise: it returns that masked
element. -/
theorem C87_hint_counterexample :
    getIntersects lines (whole board) [(0, 1)] false false none = .error .emptySubset ∧
    ∃ o, getIntersects lines (whole board) [(0, 1)] false false (some fun _ _ => false) = .ok ([some o], ⟨0, 1, 0, 1⟩) ∧
      o.var.nrow = 1 ∧ o.var.ncol = 1 ∧ o.var.masked 0 0 = true := by
  refine ⟨?_, ?_⟩
  · have : (getIntersects lines (whole board) [(0, 1)] false false none).map (·.2) = .error .emptySubset := by
      decide +kernel
    cases h : getIntersects lines (whole board) [(0, 1)] false false none with
    | error e => rw [h] at this; cases this; rfl
    | ok x => rw [h] at this; cases this
  · refine ⟨_, rfl, ?_⟩
    decide +kernel

/-! ## Intersections -/

/-- C87 (part): `get_intersection` selects the same elements as `get_intersects`, with the same slice, and each
selected element holds the intersection of its geometry with the subset geometry.  The source keeps its geometries;
when the operation is in place exactly the selected ones are replaced.  Missing: as in `C87_select_partial`. -/
theorem C87_clip_partial {G : Type} (s : Shapely G) (inner : G → G → Bool) (v : GVar G) (ps : List (Rank G)) (g : G)
    (inplace returnSlice useIndex keep : Bool) (hb : Blocks ps v) (hv : Varied s v g keep ps)
    (hi : useIndex = true → Lawful s inner ∧ (keep = true ∨ PartsAgree s inner g)) :
    ((∀ r c, r < v.nrow → c < v.ncol → ¬ Selected s v g keep r c) →
      getIntersection s ps g inplace true returnSlice useIndex keep none = .error .emptySubset) ∧
    ((∃ r c, r < v.nrow ∧ c < v.ncol ∧ Selected s v g keep r c) →
      ∃ out q, getIntersection s ps g inplace true returnSlice useIndex keep none = .ok out ∧
        Smallest q v.nrow v.ncol (Selected s v g keep) ∧ out.slice = (if returnSlice then some q else none) ∧
        Parts s v g keep (fun x => s.intersection x g) q ps out.result ∧
        (inplace = false → out.source = ps) ∧
        (inplace = true → ∀ (k : Nat) (p : Rank G), ps[k]? = some p → ∃ p' : Rank G, out.source[k]? = some p' ∧ p'.var.mask = p.var.mask ∧
          ∀ r c, r < p.var.nrow → c < p.var.ncol →
            (Selected s v g keep (p.r0 + r) (p.c0 + c) → p'.var.geom r c = s.intersection (p.var.geom r c) g) ∧
            (¬ Selected s v g keep (p.r0 + r) (p.c0 + c) → p'.var.geom r c = p.var.geom r c))) := by
  obtain ⟨hE, hO⟩ := select_spec s inner v ps g useIndex keep hb hv hi
  constructor
  · intro h
    unfold getIntersection
    rw [if_pos rfl, hE h]
    rfl
  · intro h
    obtain ⟨outs, q, h1, h2, h3, h4⟩ := hO h
    refine ⟨⟨outs.map fun o => o.map fun p => { p with var := clip s g p.var }, if returnSlice then some q else none,
      if inplace then (ps.zip (outs.map fun o => o.map fun p => { p with var := clip s g p.var })).map
        fun po => written q po.1 po.2 else ps⟩, q, ?_, h2, rfl, ?_, ?_, ?_⟩
    · unfold getIntersection
      rw [if_pos rfl, h1]
      rfl
    · refine ⟨by simp [h3], ?_⟩
      intro k p hk
      rcases h4 k p hk with ⟨a, b⟩ | ⟨o, a, b⟩
      · left; exact ⟨by simp [a], b⟩
      · right; exact ⟨_, by simp [a], clip_part s v g keep q p o b⟩
    · intro h; subst h; rfl
    · intro h; subst h
      intro k p hk
      have hp := List.mem_of_getElem? hk
      have key : ∀ x, outs[k]? = some x →
          ((x.map fun p : Rank G => { p with var := clip s g p.var }) = none ∧ (¬ ∃ r c, q.Has r c ∧ p.Holds r c)) ∨
          (∃ o, (x.map fun p : Rank G => { p with var := clip s g p.var }) = some o ∧
            PartOf s v g keep (fun x => s.intersection x g) q p o) → ∃ p',
          ((ps.zip (outs.map fun o => o.map fun p => { p with var := clip s g p.var })).map
            fun po => written q po.1 po.2)[k]? = some p' ∧ p'.var.mask = p.var.mask ∧
          ∀ r c, r < p.var.nrow → c < p.var.ncol →
            (Selected s v g keep (p.r0 + r) (p.c0 + c) → p'.var.geom r c = s.intersection (p.var.geom r c) g) ∧
            (¬ Selected s v g keep (p.r0 + r) (p.c0 + c) → p'.var.geom r c = p.var.geom r c) := by
        intro x hx hcase
        obtain ⟨-, -, -, -, w5, w6⟩ := written_spec hb h2 hp _ hcase
        refine ⟨_, ?_, w5, w6⟩
        rw [List.getElem?_map, List.zip, List.getElem?_zipWith, hk, List.getElem?_map, hx]
        rfl
      rcases h4 k p hk with ⟨a, b⟩ | ⟨o, a, b⟩
      · exact key none a (Or.inl ⟨rfl, b⟩)
      · exact key (some o) a (Or.inr ⟨_, rfl, clip_part s v g keep q p o b⟩)

example : ∃ out q, getIntersection lines boardParts [(3, 11)] true true true false false none = .ok out ∧
    Smallest q 2 3 (Selected lines board [(3, 11)] false) ∧ out.slice = some q := by
  obtain ⟨out, q, h1, h2, h3, -⟩ := (C87_clip_partial lines lineInner board boardParts [(3, 11)] true true false false
    board_blocks (Or.inl rfl) (by simp)).2 ⟨0, 1, by decide, by decide, by decide, by unfold Chosen; decide +kernel⟩
  exact ⟨out, q, h1, h2, h3⟩

/-- C87: without the check every element that is not masked is replaced by its intersection and nothing is masked or cut
off; in place the source is replaced too. -/
theorem C87_unchecked {G : Type} (s : Shapely G) (ps : List (Rank G)) (g : G) (inplace useIndex keep : Bool) :
    ∃ out, getIntersection s ps g inplace false false useIndex keep none = .ok out ∧
      out.result.length = ps.length ∧ out.source.length = ps.length ∧
      ∀ (k : Nat) (p : Rank G), ps[k]? = some p → ∃ o p' : Rank G, out.result[k]? = some (some o) ∧ out.source[k]? = some p' ∧
        (inplace = false → p' = p) ∧ (inplace = true → p' = o) ∧ o.r0 = p.r0 ∧ o.c0 = p.c0 ∧
        o.var.nrow = p.var.nrow ∧ o.var.ncol = p.var.ncol ∧ o.var.mask = p.var.mask ∧
        ∀ r c, o.var.geom r c = if p.var.masked r c = true then p.var.geom r c else s.intersection (p.var.geom r c) g := by
  refine ⟨_, rfl, by simp, by cases inplace <;> simp, ?_⟩
  intro k p hk
  refine ⟨{ p with var := clip s g p.var }, if inplace then { p with var := clip s g p.var } else p, ?_, ?_, ?_, ?_,
    rfl, rfl, rfl, rfl, rfl, ?_⟩
  · simp [hk]
  · cases inplace <;> simp [hk]
  · intro h; simp [h]
  · intro h; simp [h]
  · intro r c; rfl

/-- C87 (defect): without the check and with the slice, `get_intersection` always fails. -/
theorem C87_clip_slice_counterexample {G : Type} (s : Shapely G) (ps : List (Rank G)) (g : G) (inplace useIndex keep : Bool)
    (hint : Option (Nat → Nat → Bool)) :
    getIntersection s ps g inplace false true useIndex keep hint = .error .attributeError := rfl

/-! ## The nearest geometry and buffers -/

/-- C87: `get_nearest` raises exactly when every element is masked; otherwise the element it returns is not masked, no
element that is not masked is nearer to the centroid of the target, and of those at the same distance it is the last
one. -/
theorem C87_nearest {G : Type} (s : Shapely G) (v : GVar G) (target : G) :
    (getNearest s v target = .error .valueError ∧ ∀ r c, r < v.nrow → c < v.ncol → v.masked r c = true) ∨
    ∃ i, getNearest s v target = .ok i ∧ i.1 < v.nrow ∧ i.2 < v.ncol ∧ v.masked i.1 i.2 = false ∧
      ∀ r c, r < v.nrow → c < v.ncol → v.masked r c = false →
        s.distance (s.centroid target) (v.geom i.1 i.2) ≤ s.distance (s.centroid target) (v.geom r c) ∧
        (s.distance (s.centroid target) (v.geom r c) = s.distance (s.centroid target) (v.geom i.1 i.2) →
          (r, c) = i ∨ Before (r, c) i) := by
  have hd := dict_fold (fun i => s.distance (s.centroid target) (v.geom i.1 i.2)) (positions v) [] []
    ⟨by simp, by simp, by simp⟩
  rw [List.nil_append] at hd
  unfold getNearest
  rcases minEntry_spec ((positions v).foldl
      (fun d i => insertDistance (s.distance (s.centroid target) (v.geom i.1 i.2)) i d) []) with ⟨h0, h⟩ | ⟨e, he, h, hm⟩
  · left
    rw [h]
    refine ⟨rfl, ?_⟩
    intro r c hr hc
    cases hb : v.masked r c with
    | true => rfl
    | false =>
      obtain ⟨e, he, -⟩ := hd.keys _ ((mem_positions v r c).mpr ⟨hr, hc, hb⟩)
      rw [h0] at he
      cases he
  · right
    rw [h]
    obtain ⟨pre, post, hL, hdist, hpost⟩ := hd.last e he
    have hmem : (e.2.1, e.2.2) ∈ positions v := by rw [hL]; simp
    obtain ⟨m1, m2, m3⟩ := (mem_positions v _ _).mp hmem
    refine ⟨e.2, rfl, m1, m2, m3, ?_⟩
    intro r c hr hc hb
    have hp := (mem_positions v r c).mpr ⟨hr, hc, hb⟩
    obtain ⟨f, hf, hk⟩ := hd.keys _ hp
    refine ⟨?_, ?_⟩
    · have := hm f hf
      rw [hk, ← hdist] at this
      exact this
    · intro heq
      have ho := positions_ordered v
      rw [hL] at hp ho
      rcases List.mem_append.mp hp with hp | hp
      · right
        exact (List.pairwise_append.mp ho).2.2 _ hp _ (by simp)
      · rcases List.mem_cons.mp hp with hp | hp
        · exact Or.inl hp
        · exact absurd (heq.trans hdist) (hpost _ hp)

example : getNearest lines board [(1, 1)] = .ok (0, 1) ∧
    getNearest lines (row [[(0, 0)], [(2, 2)]]) [(1, 1)] = .ok (1, 0) := by decide +kernel

/-- C87 (defect): on two processes each returns the nearest of its own elements. -/
theorem C87_nearest_processes_counterexample :
    getNearest lines (row [[(0, 0)], [(1, 1)], [(8, 8)], [(9, 9)]]) [(1, 1)] = .ok (1, 0) ∧
    getNearest lines (row [[(0, 0)], [(1, 1)]]) [(1, 1)] = .ok (1, 0) ∧
    getNearest lines (row [[(8, 8)], [(9, 9)]]) [(1, 1)] = .ok (0, 0) := by decide +kernel

/-- C87 (part): with a mask, every element that is not masked is buffered and the others are none.  Missing: variables
without a mask (`C87_buffer_counterexample`). -/
theorem C87_buffer_partial {G : Type} (s : Shapely G) (v : GVar G) (hm : v.mask ≠ none) :
    ∃ out, getBuffer s v = .ok out ∧
      ∀ r c, out r c = if v.masked r c = true then none else some (s.buffer (v.geom r c)) := by
  cases h : v.mask with
  | none => exact absurd h hm
  | some m =>
    refine ⟨_, by unfold getBuffer; rw [h], ?_⟩
    intro r c
    unfold GVar.masked
    rw [h]

example : ∃ out, getBuffer lines board = .ok out ∧ out 0 1 = some [(1, 5)] ∧ out 0 0 = none := by
  obtain ⟨out, h, ho⟩ := C87_buffer_partial lines board (by simp [board])
  exact ⟨out, h, by rw [ho]; decide +kernel, by rw [ho]; decide +kernel⟩

/-- C87 (defect): without a mask only the first element of a variable of one dimension is buffered, the others are lost;
with two dimensions it fails. -/
theorem C87_buffer_counterexample {G : Type} (s : Shapely G) (v : GVar G) (hm : v.mask = none) :
    (v.oneD = true → ∃ out, getBuffer s v = .ok out ∧ ∀ r c, 0 < r → out r c = none) ∧
    (v.oneD = false → getBuffer s v = .error .attributeError) := by
  unfold getBuffer
  rw [hm]
  refine ⟨fun h => ⟨_, by simp only; rw [if_pos h], ?_⟩, fun h => by simp [h]⟩
  intro r c hr
  rw [if_neg (by omega)]

example : ∃ out, getBuffer lines (row [[(0, 0)], [(5, 5)]]) = .ok out ∧ out 0 0 = some [(-1, 1)] ∧ out 1 0 = none :=
  ⟨_, rfl, by decide +kernel, by decide +kernel⟩

/-! ## The operation on a field -/

/-- C87 (part): when `keep_touches` is given, clipping a field of geometries and selecting from it leave the same elements
unmasked, on every process. -/
theorem C87_touch_partial {G : Type} (s : Shapely G) (ps : List (Rank G)) (g : G) (useIndex : Bool) (touch : Touch)
    (ht : touch ≠ .auto) :
    (subsetGeoms s ps .clip g useIndex touch).map (fun l => l.map fun o => o.map fun p => (p.r0, p.c0, p.var.nrow, p.var.ncol, p.var.mask))
      = (subsetGeoms s ps .intersects g useIndex touch).map
          (fun l => l.map fun o => o.map fun p => (p.r0, p.c0, p.var.nrow, p.var.ncol, p.var.mask)) := by
  unfold subsetGeoms getIntersection
  simp only [if_true, if_neg ht]
  cases h : getIntersects s ps g useIndex touch.truthy none with
  | error e => rfl
  | ok x =>
    obtain ⟨outs, q⟩ := x
    show Except.ok _ = Except.ok _
    congr 1
    show List.map _ (List.map _ outs) = List.map _ outs
    rw [List.map_map]
    apply List.map_congr_left
    intro o _
    cases o <;> rfl

/-- C87 (defect): by default a geometry that only touches is left out by a selection, as documented, but not by
clipping: here the second geometry, of which only a point is left. -/
theorem C87_touch_counterexample :
    (subsetGeoms lines (whole (row [[(0, 2)], [(3, 4)], [(8, 9)]])) .intersects [(1, 3)] false .auto).toOption.map
        (fun l => l.map fun o => o.map fun p => (p.var.nrow, p.var.masked 0 0)) = some [some (1, false)] ∧
    (subsetGeoms lines (whole (row [[(0, 2)], [(3, 4)], [(8, 9)]])) .clip [(1, 3)] false .auto).toOption.map
        (fun l => l.map fun o => o.map fun p => (p.var.nrow, p.var.masked 1 0, p.var.geom 1 0 == [(3, 3)]))
      = some [some (2, false, true)] := by
  constructor <;> decide +kernel

/-! ## Grids -/

/-- C87 (part): for every grid and geometry whose hints miss no chosen cell (C23, C61), and without a hint of the caller,
the selection raises when no cell is selected; otherwise the slice is the smallest with all selected cells, the cells
in it that are not masked are exactly the selected ones, and clipping gives exactly these their intersections.
Missing: the optimized selection and masks of the caller (`C87_grid_optimized_counterexample`,
`C87_grid_hint_counterexample`), several processes. -/
theorem C87_grid_partial {G : Type} (s : Shapely G) (v : Grid G) (op : Op) (g : G) (near : Nat → Nat → Bool) (keep : Bool)
    (hnear : ∀ r c, r < v.nrow → c < v.ncol → Chosen s g keep (v.cell r c) → near r c = true) :
    ((∀ r c, r < v.nrow → c < v.ncol → ¬ CellSelected s v g keep r c) →
      gridSubset s v op g near none keep false = .error .emptySubset) ∧
    ((∃ r c, r < v.nrow ∧ c < v.ncol ∧ CellSelected s v g keep r c) →
      ∃ out, gridSubset s v op g near none keep false = .ok out ∧
        Smallest out.slice v.nrow v.ncol (CellSelected s v g keep) ∧
        (∀ r c, r < out.slice.r1 - out.slice.r0 → c < out.slice.c1 - out.slice.c0 →
          (maskAt out.mask r c = false ↔ CellSelected s v g keep (out.slice.r0 + r) (out.slice.c0 + c))) ∧
        (op = .clip → ∃ geom, out.geom = some geom ∧
          ∀ r c, r < out.slice.r1 - out.slice.r0 → c < out.slice.c1 - out.slice.c0 →
            (CellSelected s v g keep (out.slice.r0 + r) (out.slice.c0 + c) →
              geom r c = some (s.intersection (v.cell (out.slice.r0 + r) (out.slice.c0 + c)) g)) ∧
            (¬ CellSelected s v g keep (out.slice.r0 + r) (out.slice.c0 + c) → geom r c = none))) := by
  let fill : Nat → Nat → Bool := fun r c =>
    if (if false = true then !near r c else v.masked r c || !near r c) then true else !selects s g keep (v.cell r c)
  have hfill : ∀ r c, r < v.nrow → c < v.ncol → (fill r c = false ↔ CellSelected s v g keep r c) := by
    intro r c hr hc
    have h1 := selects_iff s g keep (v.cell r c)
    have h2 := hnear r c hr hc
    unfold CellSelected
    simp only [fill]
    cases hm : v.masked r c <;> cases hn : near r c <;> cases hs : selects s g keep (v.cell r c) <;> simp_all
  constructor
  · intro hno
    have hl : localSlice false v.nrow v.ncol fill = .ok none := by
      apply localSlice_none
      intro r c hr hc
      cases h : fill r c with
      | true => rfl
      | false => exact absurd ((hfill r c hr hc).mp h) (hno r c hr hc)
    unfold gridSubset
    simp only [Bool.false_eq_true, if_false]
    show (do let q ← (localSlice false v.nrow v.ncol fill).bind _; _) = _
    rw [hl]
    rfl
  · rintro ⟨r, c, hr, hc, hs⟩
    obtain ⟨q, h1, h2, h3, h4, h5, h6, h7⟩ := localSlice_spec false v.nrow v.ncol fill
      ⟨r, c, hr, hc, (hfill r c hr hc).mpr hs⟩ (Or.inl rfl)
    refine ⟨⟨q, if anyTrue (q.r1 - q.r0) (q.c1 - q.c0) (sub q fill) then some (sub q fill) else v.mask.map (sub q),
      if op = .clip then some (sub q fun r c => if fill r c then none else some (s.intersection (v.cell r c) g)) else none,
      none⟩, ?_, ?_, ?_, ?_⟩
    · unfold gridSubset
      simp only [Bool.false_eq_true, if_false]
      show (do let q ← (localSlice false v.nrow v.ncol fill).bind _; _) = _
      rw [h1]
      rfl
    · refine smallest_of_tight ⟨h2, h4⟩ ?_ ?_
      · exact tight_mono (fun r c h => ⟨h.1, h.2.1, (hfill r c h.1 h.2.1).mp h.2.2⟩) h7
      · intro r c hr hc hs
        exact h6 r c hr hc ((hfill r c hr hc).mpr hs)
    · intro r c hr hc
      simp only at hr hc ⊢
      have hf := hfill (q.r0 + r) (q.c0 + c) (by omega) (by omega)
      by_cases ha : anyTrue (q.r1 - q.r0) (q.c1 - q.c0) (sub q fill) = true
      · rw [if_pos ha]
        exact hf
      · rw [if_neg ha]
        have hall : fill (q.r0 + r) (q.c0 + c) = false := by
          cases hv : fill (q.r0 + r) (q.c0 + c) with
          | false => rfl
          | true =>
            exfalso
            apply ha
            unfold anyTrue
            rw [List.any_eq_true]
            refine ⟨true, ?_, rfl⟩
            have := List.mem_of_getElem? (flat_get _ _ (sub q fill) (r * (q.c1 - q.c0) + c) (pos_lt hr hc))
            rw [pos_div hc, pos_mod hc] at this
            unfold sub at this
            rwa [hv] at this
        have hsel := hf.mp hall
        have hmk : maskAt (v.mask.map (sub q)) r c = v.masked (q.r0 + r) (q.c0 + c) := by
          unfold maskAt Grid.masked sub
          cases v.mask <;> rfl
        rw [hmk, hsel.1]
        simp [hsel]
    · intro hop
      refine ⟨_, by simp only; rw [if_pos hop], ?_⟩
      intro r c hr hc
      simp only at hr hc ⊢
      have hf := hfill (q.r0 + r) (q.c0 + c) (by omega) (by omega)
      show (CellSelected s v g keep (q.r0 + r) (q.c0 + c) → (if fill (q.r0 + r) (q.c0 + c) = true then none
          else some (s.intersection (v.cell (q.r0 + r) (q.c0 + c)) g)) = _) ∧
        (_ → (if fill (q.r0 + r) (q.c0 + c) = true then none
          else some (s.intersection (v.cell (q.r0 + r) (q.c0 + c)) g)) = none)
      refine ⟨fun h => by rw [hf.mpr h]; rfl, fun h => ?_⟩
      cases hv : fill (q.r0 + r) (q.c0 + c) with
      | true => rfl
      | false => exact absurd (hf.mp hv) h

/-- The board as a grid. -/
def boardGrid : Grid (List (Int × Int)) := ⟨board.nrow, board.ncol, board.geom, board.mask⟩

example : ∃ out, gridSubset lines boardGrid .clip [(3, 5)] (fun _ _ => true) none false false = .ok out ∧
    Smallest out.slice 2 3 (CellSelected lines boardGrid [(3, 5)] false) := by
  obtain ⟨out, h1, h2, -⟩ := (C87_grid_partial lines boardGrid .clip [(3, 5)] (fun _ _ => true) false (by simp)).2
    ⟨0, 1, by decide, by decide, by decide, by unfold Chosen; decide +kernel⟩
  exact ⟨out, h1, h2⟩

/-- C87 (part): the optimized selection from a grid without a mask, by the hints alone: it raises when no cell is near,
otherwise the slice is the smallest with the cells that are near, and the cells in it that are not masked are exactly
these.  Missing: grids with a mask (`C87_grid_optimized_counterexample`). -/
theorem C87_grid_optimized_partial {G : Type} (s : Shapely G) (v : Grid G) (op : Op) (g : G) (near : Nat → Nat → Bool)
    (keep : Bool) (hm : v.mask = none) :
    ((∀ r c, r < v.nrow → c < v.ncol → near r c = false) →
      gridSubset s v op g near none keep true = .error .emptySubset) ∧
    ((∃ r c, r < v.nrow ∧ c < v.ncol ∧ near r c = true) →
      ∃ out, gridSubset s v op g near none keep true = .ok out ∧
        Smallest out.slice v.nrow v.ncol (fun r c => near r c = true) ∧
        ∀ r c, r < out.slice.r1 - out.slice.r0 → c < out.slice.c1 - out.slice.c0 →
          (maskAt out.mask r c = false ↔ near (out.slice.r0 + r) (out.slice.c0 + c) = true)) := by
  let fill : Nat → Nat → Bool := fun r c => if true = true then !near r c else v.masked r c || !near r c
  have hfill : ∀ r c, fill r c = false ↔ near r c = true := by
    intro r c
    simp [fill]
  constructor
  · intro hno
    have hl : localSlice false v.nrow v.ncol fill = .ok none := by
      apply localSlice_none
      intro r c hr hc
      simp [fill, hno r c hr hc]
    unfold gridSubset
    simp only [if_true]
    show (do let q ← (localSlice false v.nrow v.ncol fill).bind _; _) = _
    rw [hl]
    rfl
  · rintro ⟨r, c, hr, hc, hs⟩
    obtain ⟨q, h1, h2, h3, h4, h5, h6, h7⟩ := localSlice_spec false v.nrow v.ncol fill
      ⟨r, c, hr, hc, (hfill r c).mpr hs⟩ (Or.inl rfl)
    have hany : ∀ (n m : Nat) (f : Nat → Nat → Bool) (r c : Nat), r < n → c < m → anyTrue n m f ≠ true → f r c = false := by
      intro n m f r c hr hc h
      cases hv : f r c with
      | false => rfl
      | true =>
        exfalso
        apply h
        unfold anyTrue
        rw [List.any_eq_true]
        refine ⟨true, ?_, rfl⟩
        have := List.mem_of_getElem? (flat_get _ _ f (r * m + c) (pos_lt hr hc))
        rw [pos_div hc, pos_mod hc] at this
        rwa [hv] at this
    refine ⟨⟨q, match (if anyTrue v.nrow v.ncol fill then some fill else v.mask).map (sub q) with
      | some m => if anyTrue (q.r1 - q.r0) (q.c1 - q.c0) m then some m else none
      | none => (if anyTrue v.nrow v.ncol fill then some fill else v.mask).map (sub q), none, none⟩, ?_, ?_, ?_⟩
    · unfold gridSubset
      simp only [if_true]
      show (do let q ← (localSlice false v.nrow v.ncol fill).bind _; _) = _
      rw [h1, hm]
      show Except.ok _ = Except.ok _
      congr 2
      by_cases ha : anyTrue v.nrow v.ncol fill = true <;> simp [fill] at ha ⊢ <;> simp [ha]
    · refine smallest_of_tight ⟨h2, h4⟩ ?_ ?_
      · exact tight_mono (fun r c h => ⟨h.1, h.2.1, (hfill r c).mp h.2.2⟩) h7
      · intro r c hr hc hs
        exact h6 r c hr hc ((hfill r c).mpr hs)
    · intro r c hr hc
      simp only at hr hc ⊢
      rw [← hfill]
      by_cases ha : anyTrue v.nrow v.ncol fill = true
      · rw [if_pos ha]
        simp only [Option.map_some]
        by_cases hb : anyTrue (q.r1 - q.r0) (q.c1 - q.c0) (sub q fill) = true
        · rw [if_pos hb]; rfl
        · rw [if_neg hb]
          have := hany _ _ _ r c hr hc hb
          unfold sub at this
          simp [maskAt, this]
      · rw [if_neg ha, hm]
        have := hany _ _ _ (q.r0 + r) (q.c0 + c) (by omega) (by omega) ha
        simp [maskAt, this]

example : (gridSubset lines { boardGrid with mask := none } .intersects [(3, 5)] (fun r c => r == 0 && c != 0) none false
    true).toOption.map (·.slice) = some ⟨0, 1, 1, 3⟩ := by decide +kernel

/-- C87 (defect): the optimized selection replaces the mask of the grid: the masked cell, which is near, is not masked in
the result (while the selection that is not optimized keeps it masked). -/
theorem C87_grid_optimized_counterexample :
    (gridSubset lines boardGrid .intersects [(0, 3)] (fun r c => r == 0 && c != 2) none false true).toOption.map
      (fun o => (o.slice, maskAt o.mask 0 0)) = some (⟨0, 1, 0, 2⟩, false) ∧ boardGrid.masked 0 0 = true := by
  decide +kernel

/-- C87 (defect): a mask given by the caller replaces the mask of the grid, so that the masked cell is selected; and the
caller's array is overwritten with the mask of the result. -/
theorem C87_grid_hint_counterexample :
    (gridSubset lines boardGrid .intersects [(0, 1), (4, 5)] (fun _ _ => true) (some fun r _ => r == 1) false
      false).toOption.map (fun o => (o.slice, maskAt o.mask 0 0, maskAt o.hint 0 1)) = some (⟨0, 1, 0, 3⟩, false, true) ∧
    boardGrid.masked 0 0 = true := by decide +kernel

end Ocgis.Props
