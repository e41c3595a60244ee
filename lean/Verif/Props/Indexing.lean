import Verif.Proofs.Indexing
import Verif.Spec.Indexing
/-!
# C13-C15: slicing dimensions, normalising indices, optimal slices
-/
namespace Ocgis.Props
open Ocgis.Spec

/-- Apply `dim[idx]` repeatedly (variable/dimension.py:69-97). -/
def sliceChain (d : Dim) : List RawIndex → Res Dim
  | [] => .ok d
  | i :: is => do
    let d' ← d.getitem i
    sliceChain d' is

/-- C13 (partial: chains of supported indices).  Slicing a dimension that carries source indices by any chain of
supported indices, no intermediate result being empty, succeeds; the result's source indices are those numpy picks
from the original list with the same chain, and its length is their number.
Missing: indices outside `Supported` (open-ended or negative slices, negative integers, unsorted or repeated index
arrays, for which the claim is false - see the counterexamples). -/
theorem C13_source_indices_follow_partial (d : Dim) (chain : List RawIndex) (zs : List Int)
    (hnn : 0 ≤ d.len) (hal : Aligned d) (hsrc : d.srcIdx ≠ none) (h : ChainOk (sources d) chain zs) :
    ∃ r, sliceChain d chain = .ok r ∧ sources r = zs ∧ r.len = zs.length := by
  generalize hxs : sources d = xs at h
  induction h generalizing d with
  | nil xs =>
    have := sources_length d hal hsrc
    exact ⟨d, rfl, hxs, by rw [← hxs]; omega⟩
  | cons hne hsup hp _ ih =>
    have hl := sources_length d hal hsrc
    subst hxs
    have hpos : 0 < d.len := by
      have := List.length_pos_iff.2 hne
      omega
    obtain ⟨r, hr, hs⟩ := getitem_supported d _ hal hpos (by have e : (sources d).length = d.len.toNat := by omega
                                                             rw [← e]; exact hsup)
    obtain ⟨h1, h2⟩ := hs.src hsrc
    rw [hp] at h2
    injection h2 with h2
    obtain ⟨r', e1, e2⟩ := ih r hs.nonneg hs.aligned h1 h2.symm
    refine ⟨r', ?_, e2⟩
    simp only [sliceChain, hr, bind, Except.bind]
    exact e1

/-- C13 (partial, as above) for a dimension without source indices: its length is the number of elements numpy
picks from any list of the original length. -/
theorem C13_length_follows_partial {α : Type} (d : Dim) (chain : List RawIndex) (xs zs : List α)
    (hal : Aligned d) (hl : d.len = xs.length) (h : ChainOk xs chain zs) :
    ∃ r, sliceChain d chain = .ok r ∧ r.len = zs.length := by
  induction h generalizing d with
  | nil xs => exact ⟨d, rfl, hl⟩
  | @cons xs ys zs idx rest hne hsup hp _ ih =>
    have hpos : 0 < d.len := by
      have := List.length_pos_iff.2 hne
      omega
    obtain ⟨r, hr, hs⟩ := getitem_supported d _ hal hpos (by have e : xs.length = d.len.toNat := by omega
                                                             rw [← e]; exact hsup)
    obtain ⟨ws, h1, h2⟩ := hs.lens xs hl.symm
    rw [hp] at h1
    injection h1 with h1
    subst h1
    obtain ⟨r', e1, e2⟩ := ih r hs.aligned h2.symm
    refine ⟨r', ?_, e2⟩
    simp only [sliceChain, hr, bind, Except.bind]
    exact e1

/-- A dimension of six elements standing for the sources 10..15. -/
def exDim : Dim := ⟨"x", some 6, some 6, false, false, none, none, some (.bounds 10 16)⟩

/-- The hypotheses are met: a slice, then a fancy index, then a boolean mask. -/
example : 0 ≤ exDim.len ∧ Aligned exDim ∧ exDim.srcIdx ≠ none ∧
    ChainOk (sources exDim) [.slice ⟨some 1, some 6⟩, .ints [0, 2, 4], .bools [true, false, true]] [11, 15] := by
  refine ⟨by decide, by decide, by decide, ?_⟩
  refine .cons (ys := [11, 12, 13, 14, 15]) (by decide) (Or.inr ⟨1, 6, by decide⟩) (by decide) ?_
  refine .cons (ys := [11, 13, 15]) (by decide)
    ⟨by simp only [List.length_cons, List.length_nil, List.mem_cons, List.not_mem_nil, or_false]; omega,
     Or.inl ⟨[], 0, 2, [4], rfl, by decide⟩⟩ (by decide) ?_
  exact .cons (ys := [11, 15]) (by decide) rfl (by decide) (.nil _)

example : (sliceChain exDim [.slice ⟨some 1, some 6⟩, .ints [0, 2, 4], .bools [true, false, true]]).map
    (fun r => (r.len, sources r)) = .ok (2, [11, 15]) := by decide

/-- C13 is false of open-ended slices: `dim[:2]` on a five-element dimension without source indices stays five long;
with bounds as source index it raises; `dim[-1:]` likewise. -/
theorem C13_open_slice_counterexample :
    (Dim.getitem ⟨"x", some 5, some 5, false, false, none, none, none⟩ (.slice ⟨none, some 2⟩)).map Dim.len = .ok 5 ∧
    pick (.slice ⟨none, some 2⟩) [10, 11, 12, 13, 14] = .ok [10, 11] ∧
    Dim.getitem exDim (.slice ⟨none, some 2⟩) = .error .typeError := by decide

/-- C13 is false of index arrays with negative entries on a dimension whose source index is a pair of bounds: the
source indices are silently wrong. -/
theorem C13_negative_array_counterexample :
    (Dim.getitem exDim (.ints [-3, 0])).map sources = .ok [7, 10] ∧
    pick (.ints [-3, 0]) (sources exDim) = .ok [13, 10] := by decide

/-- C13 is false of `dim[-1]`: it raises although numpy returns the last element. -/
theorem C13_negative_int_counterexample :
    Dim.getitem exDim (.int (-1)) = .error .valueError ∧
    pick (.int (-1)) (sources exDim) = .ok [15] := by decide

/-- C14 (partial: excludes the integer -1 and index arrays that neither contain a jump nor are a run).  Normalising
an index and selecting with the result selects the elements the original index selects: any slice, any boolean array,
`None`, any valid integer but -1, any array with a jump, and any run of consecutive non-negative valid positions. -/
theorem C14_formatted_slice_partial {α : Type} (xs : List α) (idx : RawIndex)
    (h : match idx with
      | .int i => i ≠ -1 ∧ -xs.length ≤ i ∧ i < xs.length
      | .ints is => HasJump is ∨ (IsRun is ∧ ∀ i ∈ is, 0 ≤ i ∧ i < (xs.length : Int))
      | _ => True) :
    ∃ s, formatSlice idx = .ok s ∧ pickIndex s xs = pick idx xs := by
  cases idx with
  | none => exact ⟨_, rfl, by simp only [pickIndex, pick]; rw [PySlice.get_all]⟩
  | slice s => exact ⟨_, rfl, rfl⟩
  | bools bs => exact ⟨_, rfl, rfl⟩
  | int i =>
    simp only at h
    refine ⟨_, rfl, ?_⟩
    simp only [pickIndex, pick]
    by_cases h0 : 0 ≤ i
    · rw [PySlice.get_inside xs i (i + 1) h0 (by omega) (by omega),
        takeInts_ok _ _ (by intro j hj; simp at hj; omega), ← filterMap_range_slice xs i (i + 1) (by omega) (by omega),
        intRange_cons (by omega), intRange_empty (by omega)]
    · unfold takeInts PySlice.get PySlice.lo PySlice.hi PySlice.clip
      simp only [List.mapM_cons, List.mapM_nil, bind, Except.bind, pure, Except.pure]
      rw [if_pos (by omega), if_pos (by omega), if_neg (by omega), if_pos (by omega)]
      have hlt : (i + xs.length).toNat < xs.length := by omega
      rw [List.getElem?_eq_getElem hlt, List.drop_eq_getElem_cons hlt]
      have : (i + 1 + ↑xs.length).toNat - (i + ↑xs.length).toNat = 1 := by omega
      rw [this]
      rfl
  | ints is =>
    rcases h with h | ⟨⟨a, b, hab, rfl⟩, hr⟩
    · exact ⟨.ints is, optimalSlice_jump is h, rfl⟩
    · refine ⟨_, optimalSlice_run a b hab, ?_⟩
      have ha := hr a (mem_intRange.2 ⟨by omega, hab⟩)
      have hb := hr (b - 1) (mem_intRange.2 ⟨by omega, by omega⟩)
      simp only [pickIndex, pick]
      rw [PySlice.get_inside xs a b (by omega) (by omega) (by omega),
        takeInts_ok _ _ hr, filterMap_range_slice xs a b (by omega) (by omega)]

example : formatSlice (.int (-2)) = .ok (.slice ⟨some (-2), some (-1)⟩) ∧
    pickIndex (.slice ⟨some (-2), some (-1)⟩) [7, 8, 9] = .ok [8] ∧ pick (.int (-2)) [7, 8, 9] = .ok [8] := by decide

/-- C14 is false of the integer -1: it becomes the empty slice `-1:0`. -/
theorem C14_minus_one_counterexample :
    formatSlice (.int (-1)) = .ok (.slice ⟨some (-1), some 0⟩) ∧
    pickIndex (.slice ⟨some (-1), some 0⟩) [7, 8, 9] = .ok [] ∧ pick (.int (-1)) [7, 8, 9] = .ok [9] := by decide

/-- C14 is false of descending index arrays: `[2, 0]` becomes `0:3`. -/
theorem C14_descending_counterexample :
    formatSlice (.ints [2, 0]) = .ok (.slice ⟨some 0, some 3⟩) ∧
    pickIndex (.slice ⟨some 0, some 3⟩) [7, 8, 9] = .ok [7, 8, 9] ∧ pick (.ints [2, 0]) [7, 8, 9] = .ok [9, 7] := by decide

/-- C15 (partial: the property is false in general; this is exactly when it holds).  For a non-empty array of valid
positions, the conversion (with the difference check) selects the same elements in the same order from the array of
all positions if and only if the array contains a jump or is a run of consecutive integers. -/
theorem C15_same_selection_iff_partial (n : Nat) (is : List Int) (hne : is ≠ [])
    (hr : ∀ i ∈ is, 0 ≤ i ∧ i < (n : Int)) :
    ∃ s, optimalSlice is true = .ok s ∧
      (pickIndex s (intRange 0 n) = pick (.ints is) (intRange 0 n) ↔ HasJump is ∨ IsRun is) := by
  by_cases hj : HasJump is
  · exact ⟨.ints is, optimalSlice_jump is hj, by simp only [hj, true_or, iff_true]; rfl⟩
  · obtain ⟨mn, e1, m1, l1⟩ := listMin_ok is hne
    obtain ⟨mx, e2, m2, l2⟩ := listMax_ok is hne
    refine ⟨.slice ⟨some mn, some (mx + 1)⟩, ?_, ?_⟩
    · unfold optimalSlice
      have : anyGap is = false := by
        cases hg : anyGap is
        · rfl
        · exact absurd ((anyGap_iff is).1 hg) hj
      rw [this, e1, e2]; rfl
    · have b1 := hr mn m1
      have b2 := hr mx m2
      have b3 := l1 mx m2
      simp only [hj, false_or, pickIndex, pick]
      rw [PySlice.get_inside _ mn (mx + 1) b1.1 (by omega) (by rw [length_intRange]; omega),
        takeInts_intRange 0 n is (by intro i hi; have := hr i hi; omega),
        ← filterMap_range_slice _ mn (mx + 1) b1.1 (by rw [length_intRange]; omega)]
      have e3 : (intRange mn (mx + 1)).filterMap (fun i => (intRange 0 n)[i.toNat]?) = intRange mn (mx + 1) := by
        have q := takeInts_ok (intRange 0 n) (intRange mn (mx + 1)) (by
          intro i hi; have := mem_intRange.1 hi; rw [length_intRange]; omega)
        rw [takeInts_intRange 0 n _ (by intro i hi; have := mem_intRange.1 hi; omega)] at q
        injection q with q
        rw [← q]; simp
      rw [e3]
      constructor
      · intro h
        injection h with h
        exact ⟨mn, mx + 1, by omega, by simpa using h.symm⟩
      · rintro ⟨a, b, hab, rfl⟩
        have q1 := mem_intRange.1 m1
        have q2 := mem_intRange.1 m2
        have q3 := l1 a (mem_intRange.2 ⟨by omega, hab⟩)
        have q4 := l2 (b - 1) (mem_intRange.2 ⟨by omega, by omega⟩)
        have ea : mn = a := by omega
        have eb : mx + 1 = b := by omega
        rw [ea, eb]; simp

example : optimalSlice [2, 3, 4] true = .ok (.slice ⟨some 2, some 5⟩) ∧ IsRun [2, 3, 4] ∧
    optimalSlice [2, 5] true = .ok (.ints [2, 5]) ∧ HasJump [2, 5] :=
  ⟨by decide, ⟨2, 5, by decide⟩, by decide, ⟨[], 2, 5, [], rfl, by decide⟩⟩

/-- C15 is false of descending arrays and of repeated elements: `[5, 1]` becomes `1:6`, `[2, 2]` becomes `2:3`. -/
theorem C15_order_counterexample :
    optimalSlice [5, 1] true = .ok (.slice ⟨some 1, some 6⟩) ∧
    pickIndex (.slice ⟨some 1, some 6⟩) (intRange 0 8) = .ok [1, 2, 3, 4, 5] ∧
    pick (.ints [5, 1]) (intRange 0 8) = .ok [5, 1] ∧
    optimalSlice [2, 2] true = .ok (.slice ⟨some 2, some 3⟩) ∧
    pickIndex (.slice ⟨some 2, some 3⟩) (intRange 0 8) = .ok [2] ∧
    pick (.ints [2, 2]) (intRange 0 8) = .ok [2, 2] := by decide

/-- C15: an empty index array is rejected. -/
theorem C15_empty_rejected (c : Bool) : optimalSlice [] c = .error .valueError := by cases c <;> rfl

end Ocgis.Props
