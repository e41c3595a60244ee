import Verif.Proofs.SpatialSelect
/-!
# C23, C24, C61: the hint, the decomposition, the touching barrier
-/
namespace Ocgis.Props
open Ocgis.Select Ocgis.Spec Ocgis.Coords

/-! ### C23 -/

/-- C23: the hint of a multi-part geometry is the union of the hints of its parts. -/
theorem C23_parts_union (g : Grid1) (parts : List Box) (i j : Nat) :
    hintParts g parts i j = true ↔ ∃ p ∈ parts, hint g p i j = true := by
  have : hintParts g parts i j = (parts.map fun b => hint g b i j).any id := by
    unfold hintParts
    cases h : parts.map (fun b => hint g b i j) with
    | nil => rfl
    | cons a l => simp only [foldl_or, List.any_cons, id]
  rw [this]
  simp

/-- C23, partial (the last two hypotheses: no cell reaches further from its centre than 1.25 times the resolution):
the subset masks exactly the cells that were masked or that the exact test rejects, so the hint loses nothing. -/
theorem C23_nothing_lost_partial (limit : Nat) (g : Grid1) (mask : Nat → Nat → Bool) (useBounds : Bool) (parts : List Box)
    (selects : Box → Bool) (hsel : ExactTest parts selects) (r : Rat) (hr : resolution limit g = .ok r)
    (hx : ∀ i j, i < g.y.length → j < g.x.length → (g.x.getD j 0) - r * (5 / 4) ≤ (cellBox g useBounds i j).minx ∧
      (cellBox g useBounds i j).maxx ≤ (g.x.getD j 0) + r * (5 / 4))
    (hy : ∀ i j, i < g.y.length → j < g.x.length → (g.y.getD i 0) - r * (5 / 4) ≤ (cellBox g useBounds i j).miny ∧
      (cellBox g useBounds i j).maxy ≤ (g.y.getD i 0) + r * (5 / 4)) :
    ∃ out, subsetMask limit g mask useBounds parts selects = .ok out ∧
      ∀ i j, i < g.y.length → j < g.x.length → out i j = (mask i j || !selects (cellBox g useBounds i j)) := by
  obtain ⟨out, h1, h2⟩ := subset_of_hint limit g mask useBounds parts selects r hr
    (fun i j => i < g.y.length ∧ j < g.x.length) (by
      intro i j hij hs
      obtain ⟨p, hp, ho⟩ := hsel _ hs
      rw [C23_parts_union]
      exact ⟨_, List.mem_map.2 ⟨p, hp, rfl⟩, hint_of_overlap g useBounds i j _ p (hx i j hij.1 hij.2) (hy i j hij.1 hij.2) ho⟩)
  exact ⟨out, h1, fun i j hi hj => h2 i j ⟨hi, hj⟩⟩

/-- C23: when cells are their centres (point abstraction, or bounds not used), the hint loses nothing on any grid. -/
theorem C23_points (limit : Nat) (g : Grid1) (mask : Nat → Nat → Bool) (parts : List Box)
    (selects : Box → Bool) (hsel : ExactTest parts selects) (r : Rat) (hr : resolution limit g = .ok r) :
    ∃ out, subsetMask limit g mask false parts selects = .ok out ∧
      ∀ i j, i < g.y.length → j < g.x.length → out i j = (mask i j || !selects (cellBox g false i j)) := by
  have := resolution_nonneg limit g r hr
  apply C23_nothing_lost_partial limit g mask false parts selects hsel r hr
  · intro i j _ _
    simp only [cellBox, Bool.false_eq_true, if_false]
    constructor <;> grind
  · intro i j _ _
    simp only [cellBox, Bool.false_eq_true, if_false]
    constructor <;> grind

/-- C23: on evenly spaced grids with non-negative coordinates and cells centred on them, the hint loses nothing. -/
theorem C23_even_grid (limit : Nat) (hl : 2 ≤ limit) (ax dx ay dy : Rat) (nx ny : Nat) (hnx : 2 ≤ nx) (hny : 2 ≤ ny)
    (hax : 0 ≤ ax) (hay : 0 ≤ ay) (hdx : 0 < dx) (hdy : 0 < dy) (mask : Nat → Nat → Bool) (useBounds : Bool)
    (parts : List Box) (selects : Box → Bool) (hsel : ExactTest parts selects) (g : Grid1)
    (hg : g = ⟨evenly ax dx nx, evenly ay dy ny, (evenly ax dx nx).map fun x => (x - dx / 2, x + dx / 2),
      (evenly ay dy ny).map fun y => (y - dy / 2, y + dy / 2)⟩) :
    ∃ out, subsetMask limit g mask useBounds parts selects = .ok out ∧
      ∀ i j, i < ny → j < nx → out i j = (mask i j || !selects (cellBox g useBounds i j)) := by
  have hlx : g.x.length = nx := by subst hg; simp [evenly]
  have hly : g.y.length = ny := by subst hg; simp [evenly]
  have hr : resolution limit g = .ok ((dy + dx) / 2) := by
    unfold resolution
    rw [if_neg (by omega)]
    have h1 : g.x = evenly ax dx nx := by subst hg; rfl
    have h2 : g.y = evenly ay dy ny := by subst hg; rfl
    rw [h1, h2, arrayResolution_evenly limit hl ax dx nx hnx hax hdx, arrayResolution_evenly limit hl ay dy ny hny hay hdy]
  have hcx : ∀ i j, j < nx → ((cellBox g useBounds i j).minx = g.x.getD j 0 - dx / 2 ∧
      (cellBox g useBounds i j).maxx = g.x.getD j 0 + dx / 2) ∨ ((cellBox g useBounds i j).minx = g.x.getD j 0 ∧
      (cellBox g useBounds i j).maxx = g.x.getD j 0) := by
    intro i j hj
    cases useBounds with
    | false => right; simp [cellBox]
    | true =>
      left
      have e : g.xb.getD j (0, 0) = (g.x.getD j 0 - dx / 2, g.x.getD j 0 + dx / 2) := by
        subst hg
        have : j < (evenly ax dx nx).length := by simpa [evenly] using hj
        simp [this]
      simp only [cellBox, if_true, e]
      constructor
      · rw [Rat.min_def]; grind
      · rw [Rat.max_def]; grind
  have hcy : ∀ i j, i < ny → ((cellBox g useBounds i j).miny = g.y.getD i 0 - dy / 2 ∧
      (cellBox g useBounds i j).maxy = g.y.getD i 0 + dy / 2) ∨ ((cellBox g useBounds i j).miny = g.y.getD i 0 ∧
      (cellBox g useBounds i j).maxy = g.y.getD i 0) := by
    intro i j hi
    cases useBounds with
    | false => right; simp [cellBox]
    | true =>
      left
      have e : g.yb.getD i (0, 0) = (g.y.getD i 0 - dy / 2, g.y.getD i 0 + dy / 2) := by
        subst hg
        have : i < (evenly ay dy ny).length := by simpa [evenly] using hi
        simp [this]
      simp only [cellBox, if_true, e]
      constructor
      · rw [Rat.min_def]; grind
      · rw [Rat.max_def]; grind
  obtain ⟨out, h1, h2⟩ := C23_nothing_lost_partial limit g mask useBounds parts selects hsel _ hr
    (by
      intro i j hi hj
      rcases hcx i j (by omega) with ⟨h1, h2⟩ | ⟨h1, h2⟩ <;> rw [h1, h2] <;> constructor <;> grind)
    (by
      intro i j hi hj
      rcases hcy i j (by omega) with ⟨h1, h2⟩ | ⟨h1, h2⟩ <;> rw [h1, h2] <;> constructor <;> grind)
  exact ⟨out, h1, fun i j hi hj => h2 i j (by omega) (by omega)⟩

/-- A rectangle as the selection geometry meets the assumption on the exact test. -/
example : ExactTest [⟨1, 1, 2, 2⟩] (fun c => decide (c.minx ≤ 2) && decide (1 ≤ c.maxx) && decide (c.miny ≤ 2) && decide (1 ≤ c.maxy)) := by
  intro c hc
  simp only [Bool.and_eq_true, decide_eq_true_eq] at hc
  refine ⟨_, List.mem_singleton.2 rfl, ?_⟩
  unfold Overlap
  grind

/-- The four cells of a grid centred on zero. -/
def centred : Grid1 := ⟨[-5, 5], [-5, 5], [(-10, 0), (0, 10)], [(-10, 0), (0, 10)]⟩

/-- C23 counterexample: the resolution is computed from absolute coordinates, so it is zero for this evenly spaced grid
centred on zero; the hint then drops the only cell that contains the rectangle (1..2, 1..2), and nothing is selected. -/
theorem C23_centred_grid_counterexample :
    ∃ selects : Box → Bool, ExactTest [⟨1, 1, 2, 2⟩] selects ∧ selects (cellBox centred true 1 1) = true ∧
      ∃ out, subsetMask 100 centred (fun _ _ => false) true [⟨1, 1, 2, 2⟩] selects = .ok out ∧
        ∀ i j, i < 2 → j < 2 → out i j = true := by
  refine ⟨fun c => decide (c.minx ≤ 2) && decide (1 ≤ c.maxx) && decide (c.miny ≤ 2) && decide (1 ≤ c.maxy), ?_, ?_, ?_⟩
  · intro c hc
    simp only [Bool.and_eq_true, decide_eq_true_eq] at hc
    refine ⟨_, List.mem_singleton.2 rfl, ?_⟩
    unfold Overlap
    grind
  · decide +kernel
  · have hr : resolution 100 centred = .ok 0 := by decide +kernel
    refine ⟨_, by unfold subsetMask; rw [hr]; rfl, ?_⟩
    have hb : ∀ i, i < 2 → ∀ j, j < 2 → hintParts centred (List.map (fun b : Box => b.expand (0 * (5 / 4))) [(⟨1, 1, 2, 2⟩ : Box)]) i j = false := by
      decide +kernel
    intro i j hi hj
    simp only [hb i hi j hj]
    rfl

/-! ### C24 -/

/-- C24: for every box and every positive number of splits, the polygons cover the whole (jittered) box. -/
theorem C24_no_gaps (b : Box) (nrow ncol : Nat) (hr : 0 < nrow) (hc : 0 < ncol) (j : Jitter) (x y : Rat)
    (h : Inside (jittered b j) x y) : ∃ p ∈ splitPolygons b nrow ncol j, Inside p x y := by
  obtain ⟨h1, h2, h3, h4⟩ := h
  simp only [jittered] at h1 h2 h3 h4
  obtain ⟨w1, e1⟩ := width_ok (b.minx + j.j2) (b.maxx + j.j3) ncol hc (by grind)
  obtain ⟨w2, e2⟩ := width_ok (b.miny + j.j0) (b.maxy + j.j1) nrow hr (by grind)
  obtain ⟨c, hc1, hc2, hc3⟩ := exists_interval _ _ x ncol h1 (by rw [e1]; exact h2) hc
  obtain ⟨r, hr1, hr2, hr3⟩ := exists_interval _ _ y nrow h3 (by rw [e2]; exact h4) hr
  refine ⟨_, mem_split.2 ⟨r, c, by simp [linspace_length]; omega, by simp [linspace_length]; omega, rfl⟩, ?_⟩
  unfold Inside
  simp only
  rw [linspace_get _ _ _ _ (by omega), linspace_get _ _ _ _ (by omega), linspace_get _ _ _ _ (by omega), linspace_get _ _ _ _ (by omega)]
  exact ⟨hc2, hc3, hr2, hr3⟩

/-- C24: in row-major order: there are `nrow * ncol` polygons, number `r * ncol + c` being row `r` and column `c`: an
`ncol`-th of the width by an `nrow`-th of the height. -/
theorem C24_row_major (b : Box) (nrow ncol : Nat) (j : Jitter) :
    (splitPolygons b nrow ncol j).length = nrow * ncol ∧
    ∀ r c, r < nrow → c < ncol → (splitPolygons b nrow ncol j)[r * ncol + c]? = some
      (let x0 := b.minx + j.j2
       let y0 := b.miny + j.j0
       let w := ((b.maxx + j.j3) - x0) / (ncol : Rat)
       let h := ((b.maxy + j.j1) - y0) / (nrow : Rat)
       ⟨x0 + (c : Rat) * w, y0 + (r : Rat) * h, x0 + ((c + 1 : Nat) : Rat) * w, y0 + ((r + 1 : Nat) : Rat) * h⟩) := by
  unfold splitPolygons splitFromVectors
  simp only [linspace_length, Nat.add_sub_cancel]
  refine ⟨rowMajor_length _ _ _, ?_⟩
  intro r c hr hc
  have := rowMajor_get nrow ncol (fun r c => (⟨(linspace (b.minx + j.j2) (b.maxx + j.j3) ncol).getD c 0,
    (linspace (b.miny + j.j0) (b.maxy + j.j1) nrow).getD r 0, (linspace (b.minx + j.j2) (b.maxx + j.j3) ncol).getD (c + 1) 0,
    (linspace (b.miny + j.j0) (b.maxy + j.j1) nrow).getD (r + 1) 0⟩ : Box)) r c hr hc
  refine this.trans ?_
  rw [linspace_get _ _ _ _ (by omega), linspace_get _ _ _ _ (by omega), linspace_get _ _ _ _ (by omega),
    linspace_get _ _ _ _ (by omega)]

/-- C24: no point lies strictly inside two of the polygons. -/
theorem C24_no_overlap (b : Box) (nrow ncol : Nat) (j : Jitter) (hx : b.minx + j.j2 ≤ b.maxx + j.j3)
    (hy : b.miny + j.j0 ≤ b.maxy + j.j1) (k l : Nat) (p q : Box) (hp : (splitPolygons b nrow ncol j)[k]? = some p)
    (hq : (splitPolygons b nrow ncol j)[l]? = some q) (x y : Rat) (h1 : StrictlyInside p x y) (h2 : StrictlyInside q x y) :
    k = l := by
  obtain ⟨hlen, hget⟩ := C24_row_major b nrow ncol j
  have key : ∀ k p, (splitPolygons b nrow ncol j)[k]? = some p → ∃ r c, r < nrow ∧ c < ncol ∧ k = r * ncol + c := by
    intro k p h
    have hk := (List.getElem?_eq_some_iff.1 h).1
    rw [hlen] at hk
    have hc : 0 < ncol := by
      rcases Nat.eq_zero_or_pos ncol with h | h
      · subst h; simp at hk
      · exact h
    exact ⟨k / ncol, k % ncol, (Nat.div_lt_iff_lt_mul hc).2 hk, Nat.mod_lt _ hc, (Nat.div_add_mod' k ncol).symm⟩
  obtain ⟨r, c, hr, hc, rfl⟩ := key k p hp
  obtain ⟨r', c', hr', hc', rfl⟩ := key l q hq
  rw [hget r c hr hc] at hp
  rw [hget r' c' hr' hc'] at hq
  cases hp; cases hq
  simp only [StrictlyInside] at h1 h2
  have wx := (width_ok (b.minx + j.j2) (b.maxx + j.j3) ncol (by omega) hx).1
  have wy := (width_ok (b.miny + j.j0) (b.maxy + j.j1) nrow (by omega) hy).1
  have ec : c = c' := by
    rcases Nat.lt_trichotomy c c' with h | h | h
    · exact absurd (interval_disjoint _ _ x wx c c' h h1.2.1 h2.1) (fun h => h)
    · exact h
    · exact absurd (interval_disjoint _ _ x wx c' c h h2.2.1 h1.1) (fun h => h)
  have er : r = r' := by
    rcases Nat.lt_trichotomy r r' with h | h | h
    · exact absurd (interval_disjoint _ _ y wy r r' h h1.2.2.2 h2.2.2.1) (fun h => h)
    · exact h
    · exact absurd (interval_disjoint _ _ y wy r' r h h2.2.2.2 h1.2.2.1) (fun h => h)
  rw [ec, er]

/-- C24: the decomposition without an index yields one subset per polygon, in order, and for every jitter (each value
between zero and the buffer) the polygons cover the whole extent. -/
theorem C24_covers_extent (e : Box) (buffer : Rat) (nrow ncol : Nat) (hr : 0 < nrow) (hc : 0 < ncol) (j : Jitter)
    (h0 : 0 ≤ j.j0 ∧ j.j0 ≤ buffer) (h1 : 0 ≤ j.j1 ∧ j.j1 ≤ buffer) (h2 : 0 ≤ j.j2 ∧ j.j2 ≤ buffer)
    (h3 : 0 ≤ j.j3 ∧ j.j3 ≤ buffer) :
    decomposition e buffer nrow ncol j none = splitPolygons (e.expand buffer) nrow ncol j ∧
    ∀ x y, Inside e x y → ∃ p ∈ decomposition e buffer nrow ncol j none, Inside p x y := by
  have heq : decomposition e buffer nrow ncol j none = splitPolygons (e.expand buffer) nrow ncol j :=
    decompositionLoop_none _ _
  refine ⟨heq, ?_⟩
  intro x y hi
  rw [heq]
  apply C24_no_gaps _ nrow ncol hr hc
  unfold Inside jittered Box.expand at *
  simp only at *
  grind

example : splitPolygons ⟨0, 0, 4, 2⟩ 2 2 ⟨0, 0, 0, 0⟩ = [⟨0, 0, 2, 1⟩, ⟨2, 0, 4, 1⟩, ⟨0, 1, 2, 2⟩, ⟨2, 1, 4, 2⟩] := by
  decide +kernel

/-- C24 counterexample: whichever element is asked for, the decomposition yields nothing. -/
theorem C24_single_element_counterexample (e : Box) (buffer : Rat) (nrow ncol : Nat) (j : Jitter) (k : Nat) :
    decomposition e buffer nrow ncol j (some k) = [] := by
  unfold decomposition
  generalize splitPolygons (e.expand buffer) nrow ncol j = l
  generalize 0 = n
  induction l generalizing n with
  | nil => rfl
  | cons a l ih =>
    simp only [decompositionLoop]
    split
    · exact ih _
    · rfl

/-! ### C61 -/

/-- C61 for grids with two-dimensional coordinates: the barrier stops the subset exactly when a cell centre lies on a
corner of the box. -/
theorem C61_touching_barrier_partial (x y : List (List Rat)) (b : Box) :
    (CentreOnCorner x y b → touching2 x y b = .error .noTouching) ∧ (¬CentreOnCorner x y b → touching2 x y b = .ok ()) := by
  have key : ((x.map fun row => row.map fun v => decide (v = b.minx) || decide (v = b.maxx)).zip
      (y.map fun row => row.map fun v => decide (v = b.miny) || decide (v = b.maxy))).any
      (fun r => (r.1.zip r.2).any fun c => c.1 && c.2) = true ↔ CentreOnCorner x y b := by
    rw [List.any_eq_true]
    constructor
    · rintro ⟨r, hr, hc⟩
      rw [List.any_eq_true] at hc
      obtain ⟨c, hc, hcc⟩ := hc
      obtain ⟨i, hi⟩ := List.getElem?_of_mem hr
      obtain ⟨j, hj⟩ := List.getElem?_of_mem hc
      rw [List.getElem?_zip_eq_some] at hi hj
      obtain ⟨i1, i2⟩ := hi
      obtain ⟨j1, j2⟩ := hj
      rw [List.getElem?_map, Option.map_eq_some_iff] at i1 i2
      obtain ⟨rx, hrx, erx⟩ := i1
      obtain ⟨ry, hry, ery⟩ := i2
      rw [← erx, List.getElem?_map, Option.map_eq_some_iff] at j1
      rw [← ery, List.getElem?_map, Option.map_eq_some_iff] at j2
      obtain ⟨vx, hvx, evx⟩ := j1
      obtain ⟨vy, hvy, evy⟩ := j2
      rw [← evx, ← evy] at hcc
      simp only [Bool.and_eq_true, Bool.or_eq_true, decide_eq_true_eq] at hcc
      exact ⟨i, j, rx, ry, vx, vy, hrx, hry, hvx, hvy, hcc.1, hcc.2⟩
    · rintro ⟨i, j, rx, ry, vx, vy, hrx, hry, hvx, hvy, h1, h2⟩
      refine ⟨(rx.map fun v => decide (v = b.minx) || decide (v = b.maxx), ry.map fun v => decide (v = b.miny) || decide (v = b.maxy)), ?_, ?_⟩
      · apply List.mem_of_getElem? (i := i)
        rw [List.getElem?_zip_eq_some]
        simp [hrx, hry]
      · rw [List.any_eq_true]
        refine ⟨(decide (vx = b.minx) || decide (vx = b.maxx), decide (vy = b.miny) || decide (vy = b.maxy)), ?_, ?_⟩
        · apply List.mem_of_getElem? (i := j)
          rw [List.getElem?_zip_eq_some]
          simp [hvx, hvy]
        · simp [h1, h2]
  unfold touching2
  simp only
  constructor
  · intro h; rw [if_pos (key.2 h)]
  · intro h; rw [if_neg (fun hh => h (key.1 hh))]

example : CentreOnCorner [[0, 1], [0, 1]] [[5, 5], [6, 6]] ⟨1, 6, 3, 9⟩ := ⟨1, 1, _, _, 1, 6, rfl, rfl, rfl, rfl, Or.inl rfl, Or.inl rfl⟩

/-- C61 on grids with coordinate vectors that have at least as many columns as rows (partial): the barrier stops the subset
exactly when the column with the number of the last row lies on a vertical side and some row on a horizontal side. In
particular it only stops a subset with a centre on a corner. -/
theorem C61_vectors_partial (g : Grid1) (b : Box) (x : Rat) (hx : g.x[g.y.length - 1]? = some x) :
    ((x = b.minx ∨ x = b.maxx) ∧ (∃ y ∈ g.y, y = b.miny ∨ y = b.maxy) → touching g b = .error .noTouching) ∧
    (¬((x = b.minx ∨ x = b.maxx) ∧ (∃ y ∈ g.y, y = b.miny ∨ y = b.maxy)) → touching g b = .ok ()) := by
  have e : touching g b = if ((x = b.minx ∨ x = b.maxx) ∧ (∃ y ∈ g.y, y = b.miny ∨ y = b.maxy)) then .error .noTouching else .ok () := by
    simp only [touching, List.getElem?_map, hx, Option.map_some]
    congr 1
    simp [List.any_eq_true]
  constructor
  · intro h; rw [e, if_pos h]
  · intro h; rw [e, if_neg h]

example : (⟨[0, 1, 2], [5, 6], [], []⟩ : Grid1).x[(⟨[0, 1, 2], [5, 6], [], []⟩ : Grid1).y.length - 1]? = some 1 ∧
    touching ⟨[0, 1, 2], [5, 6], [], []⟩ ⟨0, 5, 1, 9⟩ = .error .noTouching := ⟨rfl, by decide +kernel⟩

/-- C61 counterexamples on grids with coordinate vectors: a centre on a corner goes unnoticed, and any grid with more rows than columns fails with an index error. -/
theorem C61_vectors_counterexample :
    (touching ⟨[0, 1, 2], [5, 6], [], []⟩ ⟨0, 5, 9, 9⟩ = .ok () ∧ (0 : Rat) ∈ ([0, 1, 2] : List Rat) ∧ (5 : Rat) ∈ ([5, 6] : List Rat)) ∧
    (∀ b, touching ⟨[0, 1], [5, 6, 7], [], []⟩ b = .error .indexError) := by
  refine ⟨⟨by decide +kernel, by decide +kernel, by decide +kernel⟩, fun b => rfl⟩

end Ocgis.Props
