import Verif.Proofs.Between
/-!
# C32: selection between two values
-/
namespace Ocgis.Props
open Ocgis.Between Ocgis.Spec

/-- C32, without bounds or with `use_bounds=False`: what is left are exactly the elements whose value lies in the range, in
order, with their bounds; the indices, if asked for and given, are theirs. -/
theorem C32_values (c : Coord) (lower upper : Rat) (ri closed useBounds : Bool) (hno : c.bounds = none ∨ useBounds = false)
    (hb : ∀ b, c.bounds = some b → b.length = c.values.length)
    (r : Coord) (out : Option (List Nat)) (h : getBetween c lower upper ri closed useBounds = .ok (r, out)) :
    ∃ idx, Names idx c.values (InRange closed lower upper) ∧ idx ≠ [] ∧
      r.values = elementsAt c.values idx ∧ r.bounds = c.bounds.map (elementsAt · idx) ∧ out = if ri then some idx else none := by
  have hsel : selectValues closed lower upper c.values = selection c closed useBounds lower upper := by
    unfold selection
    rcases hno with h | h
    · rw [h]
    · subst h; cases c.bounds <;> rfl
  obtain ⟨h1, h2, h3, h4⟩ := getBetween_ok c lower upper ri closed useBounds _ hsel (by simp [selectValues]) hb r out h
  refine ⟨_, ?_, h3, h1, h2, h4⟩
  apply names_of_map
  intro v _
  cases closed <;> simp [InRange]

/-- C32, with bounds (all cells proper and written in the same direction): what is left are exactly the elements whose cell
meets the range, in order, with their bounds; the indices, if asked for and given, are theirs. -/
theorem C32_bounds (c : Coord) (bounds : List (Rat × Rat)) (lower upper : Rat) (ri closed contig : Bool) (hc : c.bounds = some bounds)
    (hlen : bounds.length = c.values.length) (hd : SameDirection bounds) (hcontig : contig = true ↔ ShareEnd bounds)
    (r : Coord) (out : Option (List Nat)) (h : getBetween c lower upper ri closed true = .ok (r, out)) :
    ∃ idx, Names idx bounds (fun b => CellInRange closed contig lower upper (min b.1 b.2) (max b.1 b.2)) ∧ idx ≠ [] ∧
      r.values = elementsAt c.values idx ∧ r.bounds = some (elementsAt bounds idx) ∧ out = if ri then some idx else none := by
  have hlu : lower ≤ upper := by
    unfold getBetween at h
    split at h
    · cases h
    · rename_i hn; exact Decidable.of_not_not hn
  obtain ⟨f, hf1, hf2⟩ := selectBounds_eq closed lower upper hlu bounds hd
  have hcc : contiguous bounds = contig := by
    rw [Bool.eq_iff_iff, contiguous_iff, hcontig]
  obtain ⟨h1, h2, h3, h4⟩ := getBetween_ok c lower upper ri closed true (selectBounds closed lower upper bounds) (by unfold selection; rw [hc]; rfl)
    (by rw [hf1]; simp [hlen]) (by intro b hb; rw [hc] at hb; cases hb; exact hlen) r out h
  refine ⟨_, ?_, h3, h1, by rw [h2, hc]; rfl, h4⟩
  rw [hf1]
  apply names_of_map
  intro b hb
  rw [hf2 b hb, hcc]

/-- Three cells, of which two meet the range from 1 to 3/2. -/
def demoCoord : Coord := { values := [0, 1, 2], bounds := some [(-1/2, 1/2), (1/2, 3/2), (3/2, 5/2)] }

example : SameDirection [((-1/2 : Rat), (1/2 : Rat)), (1/2, 3/2), (3/2, 5/2)] := by
  left; intro b hb; simp at hb; rcases hb with rfl | rfl | rfl <;> decide +kernel
example : getBetween demoCoord 1 (3/2) false false = .ok ({ values := [1, 2], bounds := some [(1/2, 3/2), (3/2, 5/2)] }, none) := by
  decide +kernel
example : getBetween demoCoord 1 (3/2) false true = .ok ({ values := [1], bounds := some [(1/2, 3/2)] }, none) := by
  decide +kernel
example : getBetween { values := [3, 1, 2, 7] } 2 5 true false = .ok ({ values := [3, 2] }, some [0, 2]) := by decide +kernel

/-- C32: when nothing is left the selection fails, and without indices that is the only failure (apart from a range that is
no range, and empty bounds). -/
theorem C32_refused (c : Coord) (lower upper : Rat) (closed : Bool) (hlu : lower ≤ upper) (hno : c.bounds = none) :
    ((¬∃ v ∈ c.values, InRange closed lower upper v) → ∀ ri, getBetween c lower upper ri closed = .error .emptySubset) ∧
    ((∃ v ∈ c.values, InRange closed lower upper v) → ∃ r, getBetween c lower upper false closed = .ok (r, none)) := by
  have hany : (selectValues closed lower upper c.values).any id = true ↔ ∃ v ∈ c.values, InRange closed lower upper v := by
    simp only [selectValues, List.any_map, List.any_eq_true, Function.comp_def, id]
    refine exists_congr fun v => and_congr_right fun _ => ?_
    cases closed <;> simp [InRange]
  refine ⟨?_, ?_⟩
  · intro hn ri
    rw [← hany] at hn
    unfold getBetween
    rw [if_neg (by simpa using hlu), if_neg (by rw [hno]; simp)]
    simp only [selection, hno]
    rw [if_pos hn]
  · intro hy
    rw [← hany] at hy
    unfold getBetween
    rw [if_neg (by simpa using hlu), if_neg (by rw [hno]; simp)]
    simp only [selection, hno]
    rw [if_neg (by simpa using hy)]
    exact ⟨_, rfl⟩

example : getBetween { values := [1, 2] } 5 6 false false = .error .emptySubset := by decide +kernel

/-- C32, with bounds: when no cell meets the range the selection fails; otherwise, without indices, it does not. -/
theorem C32_bounds_refused (c : Coord) (bounds : List (Rat × Rat)) (lower upper : Rat) (closed contig : Bool) (hlu : lower ≤ upper)
    (hc : c.bounds = some bounds) (hne : bounds ≠ []) (hd : SameDirection bounds) (hcontig : contig = true ↔ ShareEnd bounds) :
    ((¬∃ b ∈ bounds, CellInRange closed contig lower upper (min b.1 b.2) (max b.1 b.2)) →
      ∀ ri, getBetween c lower upper ri closed = .error .emptySubset) ∧
    ((∃ b ∈ bounds, CellInRange closed contig lower upper (min b.1 b.2) (max b.1 b.2)) →
      ∃ r, getBetween c lower upper false closed = .ok (r, none)) := by
  obtain ⟨f, hf1, hf2⟩ := selectBounds_eq closed lower upper hlu bounds hd
  have hcc : contiguous bounds = contig := by
    rw [Bool.eq_iff_iff, contiguous_iff, hcontig]
  have hany : (selectBounds closed lower upper bounds).any id = true ↔
      ∃ b ∈ bounds, CellInRange closed contig lower upper (min b.1 b.2) (max b.1 b.2) := by
    rw [hf1]
    simp only [List.any_map, List.any_eq_true, Function.comp_def, id]
    refine exists_congr fun v => and_congr_right fun hv => ?_
    rw [hf2 v hv, hcc]
  refine ⟨?_, ?_⟩
  · intro hn ri
    rw [← hany] at hn
    unfold getBetween
    rw [if_neg (by simpa using hlu), if_neg (by rw [hc]; simpa using hne)]
    simp only [selection, hc, if_true]
    rw [if_pos hn]
  · intro hy
    rw [← hany] at hy
    unfold getBetween
    rw [if_neg (by simpa using hlu), if_neg (by rw [hc]; simpa using hne)]
    simp only [selection, hc, if_true]
    rw [if_neg (by simpa using hy)]
    exact ⟨_, rfl⟩

/-- C32 is false with indices: when what is left is one run of elements, the call fails instead of naming them. -/
theorem C32_indices_counterexample : ∃ c lower upper,
    (∃ r, getBetween c lower upper false false = .ok (r, none)) ∧ getBetween c lower upper true false = .error .attributeError :=
  ⟨{ values := [1, 2, 3] }, 2, 3, ⟨{ values := [2, 3] }, by decide +kernel⟩, by decide +kernel⟩

end Ocgis.Props
