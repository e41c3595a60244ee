import Verif.Proofs.Windows
/-!
# C44: moving windows; C47: convolution; C48: thresholds
-/
namespace Ocgis.Props
open Ocgis.Series Ocgis.Spec

/-! ## C44 -/

/-- C44, mode `valid`: for every series at least as long as the window, every odd width of at least three and every operation, the result at
each step with a full window is the operation over exactly the `k` steps centred on it, and it is not masked; every other step is masked. -/
theorem C44_valid_partial {α : Type _} (op : List (Cell α) → Cell α) (k : Nat) (hk : k % 2 = 1) (hk3 : 3 ≤ k) (values : List (Cell α))
    (hn : k ≤ values.length) :
    ∃ out, movingWindow op "valid" k values = .ok out ∧ out.length = values.length ∧
      (∀ i, (k - 1) / 2 ≤ i → i + (k - 1) / 2 < values.length →
        out[i]? = some ((op (stretch values (i - (k - 1) / 2) (i + (k - 1) / 2 + 1))).1, false) ∧
        (stretch values (i - (k - 1) / 2) (i + (k - 1) / 2 + 1)).length = k) ∧
      (∀ i c, (i < (k - 1) / 2 ∨ values.length ≤ i + (k - 1) / 2) → out[i]? = some c → c.2 = true) := by
  have hkm : k = 2 * ((k - 1) / 2) + 1 := by omega
  generalize (k - 1) / 2 = h at *
  have hw := validWindows_eq values.length h (values.length + h + 1) 0 (by omega) (by omega) (by omega) (by omega)
  obtain ⟨m, hm⟩ : ∃ m, values.length - h - h = m + 1 := ⟨values.length - h - h - 1, by omega⟩
  obtain ⟨g1, g2⟩ := fillWindows_get op values (fun o => o - h) (fun o => o + h + 1) (List.range' h (m + 1)) values
  refine ⟨unmaskOnly h (h + m + 1) (fillWindows op values values ((List.range' h (m + 1)).map fun o => (o, o - h, o + h + 1))), ?_, ?_, ?_, ?_⟩
  · unfold movingWindow
    rw [if_neg (by simp), if_neg (by omega), if_pos rfl]
    have hh : (k - 1) / 2 = h := by omega
    rw [hh, windowValid, hw, hm]
    have hhead : ((List.range' h (m + 1)).map fun o => (o, o - h, o + h + 1)).head? = some (h, h - h, h + h + 1) := by
      simp [List.range'_succ]
    have hlast : ((List.range' h (m + 1)).map fun o => (o, o - h, o + h + 1)).getLast? = some (h + m, h + m - h, h + m + h + 1) := by
      rw [List.getLast?_eq_getElem?]
      simp
    simp only [hhead, hlast]
  · simp [unmaskOnly, g1]
  · intro i hi1 hi2
    refine ⟨?_, by simp [stretch]; omega⟩
    have hmem : i ∈ List.range' h (m + 1) := by simp [List.mem_range'_1]; omega
    simp only [unmaskOnly, List.getElem?_mapIdx]
    rw [g2 i (by omega), if_pos hmem]
    simp only [Option.map_some, Option.some.injEq, Prod.mk.injEq, true_and]
    simp; omega
  · intro i c hi hc
    simp only [unmaskOnly, List.getElem?_mapIdx] at hc
    cases hg : (fillWindows op values values ((List.range' h (m + 1)).map fun o => (o, o - h, o + h + 1)))[i]? with
    | none => rw [hg] at hc; cases hc
    | some c' =>
      rw [hg] at hc
      simp only [Option.map_some, Option.some.injEq] at hc
      subst hc
      simp; omega

/-- C44, mode `same`: every step gets the operation over the window around it, cut at the ends of the series. -/
theorem C44_same {α : Type _} (op : List (Cell α) → Cell α) (k : Nat) (hk : k % 2 = 1) (hk3 : 3 ≤ k) (values : List (Cell α))
    (hn : 0 < values.length) :
    ∃ out, movingWindow op "same" k values = .ok out ∧ out.length = values.length ∧
      ∀ i, i < values.length →
        out[i]? = some (op (stretch values (i - (k - 1) / 2) (min (i + (k - 1) / 2 + 1) values.length))) := by
  generalize hh : (k - 1) / 2 = h at *
  have hw := sameWindows_eq values.length h values.length 0 (by omega) hn
  obtain ⟨g1, g2⟩ := fillWindows_get op values (fun o => o - h) (fun o => o + h + 1) (List.range' 0 values.length) values
  refine ⟨_, ?_, g1, ?_⟩
  · unfold movingWindow
    rw [if_neg (by simp), if_neg (by omega), if_neg (by simp), hh, windowSame, hw]
  · intro i hi
    rw [g2 i hi, if_pos (by simp [List.mem_range'_1, hi])]
    congr 2
    simp only [stretch]
    by_cases hle : i + h + 1 ≤ values.length
    · rw [Nat.min_eq_left hle]
    · rw [Nat.min_eq_right (by omega), List.take_of_length_le (by simp; omega), List.take_of_length_le (by simp)]

/-- C44: a mode other than these two, an even width and a width under three are refused; a series shorter than the window ends in an
`UnboundLocalError`. -/
theorem C44_refused {α : Type _} (op : List (Cell α) → Cell α) (mode : String) (k : Nat) (values : List (Cell α)) :
    ((mode ≠ "same" ∧ mode ≠ "valid") ∨ k % 2 = 0 ∨ k < 3 → movingWindow op mode k values = .error .assertionError) ∧
    (k % 2 = 1 → 3 ≤ k → values.length < k → movingWindow op "valid" k values = .error .unboundLocal) := by
  refine ⟨?_, ?_⟩
  · rintro (⟨h1, h2⟩ | h | h)
    · simp [movingWindow, h1, h2]
    · unfold movingWindow
      by_cases hm : mode = "same" ∨ mode = "valid"
      · rw [if_neg (fun hc => hc hm), if_pos (.inl h)]
      · rw [if_pos hm]
    · unfold movingWindow
      by_cases hm : mode = "same" ∨ mode = "valid"
      · rw [if_neg (fun hc => hc hm), if_pos (.inr h)]
      · rw [if_pos hm]
  · intro hk hk3 hn
    have hw := validWindows_eq values.length ((k - 1) / 2) (values.length + (k - 1) / 2 + 1) 0 (by omega) (by omega) (by omega) (by omega)
    unfold movingWindow
    rw [if_neg (by simp), if_neg (by omega), if_pos rfl, windowValid, hw, show values.length - (k - 1) / 2 - (k - 1) / 2 = 0 by omega]
    rfl

/-- The mean of the unmasked values, rounded down; masked if there are none. -/
def meanUnmasked (w : List (Cell Nat)) : Cell Nat :=
  (((w.filter fun c => !c.2).map (·.1)).sum / (w.filter fun c => !c.2).length, w.all (·.2))

example : movingWindow meanUnmasked "valid" 3 [(1, false), (2, false), (6, false), (7, false), (8, false)] =
    .ok [(1, true), (3, false), (5, false), (7, false), (8, true)] := by decide

/-- C44 is false of masked inputs: in both modes a masked step gets the value of its neighbours and is no longer masked; and in mode `valid` a
window without unmasked values, whose result is masked, is unmasked. -/
theorem C44_masked_counterexample :
    movingWindow meanUnmasked "valid" 3 [(2, false), (0, true), (6, false)] = .ok [(2, true), (4, false), (6, true)] ∧
    movingWindow meanUnmasked "same" 3 [(2, false), (0, true), (6, false)] = .ok [(2, false), (4, false), (6, false)] ∧
    movingWindow meanUnmasked "valid" 3 [(2, true), (0, true), (6, true)] = .ok [(2, true), (0, false), (6, true)] := by decide

/-! ## C47 -/

/-- C47 (kernels of length at least two, not longer than the series): the steps that are not masked are exactly those for which the kernel
overlaps the series fully, and they have the value of the convolution there. -/
theorem C47_valid_partial (values v : List Int) (mask0 : Bool) (hv : 2 ≤ v.length) (hn : v.length ≤ values.length) :
    ∃ out, convolve1d values mask0 v = .ok out ∧ out.length = values.length ∧
      ∀ t c, out[t]? = some c →
        (c.2 = false ↔ mask0 = false ∧ FullOverlap values v t) ∧
        (FullOverlap values v t → c.1 = ((List.range v.length).map fun j => values.getD (t + v.length - 1 - j) 0 * v.getD j 0).sum) := by
  have hlen : (convolveValid values v).length = values.length - v.length + 1 := by
    rw [convolveValid, if_pos hn]; simp
  refine ⟨_, by rw [convolve1d, if_neg (by omega), if_neg (by omega)], ?_, ?_⟩
  · simp [hlen]; omega
  · intro t c hc
    rw [List.getElem?_mapIdx] at hc
    rw [if_neg (by omega)] at hc
    cases hg : (convolveValid values v ++ List.replicate (values.length - (convolveValid values v).length) 0)[t]? with
    | none => rw [hg] at hc; cases hc
    | some x =>
      rw [hg] at hc
      simp only [Option.map_some, Option.some.injEq] at hc
      subst hc
      refine ⟨?_, ?_⟩
      · simp only [Bool.or_eq_false_iff, Bool.not_eq_false', decide_eq_true_eq, FullOverlap]
        constructor
        · rintro ⟨h1, h2⟩; exact ⟨h1, by omega⟩
        · rintro ⟨h1, h2⟩; exact ⟨h1, by omega⟩
      · intro hfull
        have ht : t < values.length - v.length + 1 := by unfold FullOverlap at hfull; omega
        rw [List.getElem?_append_left (by omega), convolveValid, if_pos hn, List.getElem?_map, List.getElem?_range ht] at hg
        simp only [Option.map_some, Option.some.injEq] at hg
        rw [← hg]
        rfl

/-- C47: with a kernel longer than the series there is no full overlap, and either every step is masked or the convolution is refused. -/
theorem C47_long_kernel (values v : List Int) (mask0 : Bool) (hv : 2 ≤ v.length) (hn : values.length < v.length) :
    convolve1d values mask0 v = .error .valueError ∨
    ∃ out, convolve1d values mask0 v = .ok out ∧ ∀ c ∈ out, c.2 = true := by
  by_cases h0 : v.length = 0 ∨ values.length = 0
  · left; rw [convolve1d, if_pos h0]
  · by_cases h1 : (convolveValid values v).length > values.length
    · left; rw [convolve1d, if_neg h0, if_pos h1]
    · right
      refine ⟨_, by rw [convolve1d, if_neg h0, if_neg h1], ?_⟩
      intro c hc
      obtain ⟨i, hi, rfl⟩ := List.mem_mapIdx.1 hc
      rw [if_neg (by omega), show values.length - (v.length - 1) = 0 by omega]
      simp

example : convolve1d [1, 2, 3, 4] false [1, 10] = .ok [(12, false), (23, false), (34, false), (0, true)] := by decide

/-- C47 is false for a kernel of length one: every step overlaps fully, and every step is masked. -/
theorem C47_single_kernel_counterexample :
    convolve1d [1, 2, 3] false [10] = .ok [(10, true), (20, true), (30, true)] ∧ ∀ t, t < 3 → FullOverlap [1, 2, 3] [10] t := by
  refine ⟨by decide, ?_⟩
  intro t ht
  simp [FullOverlap]; omega

/-! ## C48 -/

/-- C48: the threshold index is the number of unmasked steps satisfying the comparison, masked exactly if there is no unmasked step; a
comparison of another name is refused. -/
theorem C48_threshold (op : String) (t : Rat) (values : List (Cell Rat)) :
    (op ∈ ["gt", "lt", "gte", "lte"] → ∃ n m, threshold op t values = .ok (n, m) ∧
      n = (values.filter fun c => decide (c.2 = false) && decide (Compares op c.1 t)).length ∧ (m = true ↔ ∀ c ∈ values, c.2 = true)) ∧
    (op ∉ ["gt", "lt", "gte", "lte"] → threshold op t values = .error .notImplemented) := by
  have key : ∀ p : Rat → Bool, (maSum (values.map fun c => (p c.1, c.2))).1 = (values.filter fun c => decide (c.2 = false) && p c.1).length ∧
      ((maSum (values.map fun c => (p c.1, c.2))).2 = true ↔ ∀ c ∈ values, c.2 = true) := by
    intro p
    refine ⟨?_, ?_⟩
    · simp only [maSum]
      rw [List.countP_map, List.countP_eq_length_filter]
      congr 1
      apply List.filter_congr
      intro c _
      rcases c with ⟨x, m⟩
      cases m <;> simp
    · simp only [maSum, List.all_map, List.all_eq_true, Function.comp]
  refine ⟨?_, ?_⟩
  · intro h
    simp only [List.mem_cons, List.not_mem_nil, or_false] at h
    rcases h with rfl | rfl | rfl | rfl
    · refine ⟨_, _, rfl, ?_, (key fun x => decide (x > t)).2⟩
      refine ((key fun x => decide (x > t)).1).trans ?_
      simp [Compares]
    · refine ⟨_, _, rfl, ?_, (key fun x => decide (x < t)).2⟩
      refine ((key fun x => decide (x < t)).1).trans ?_
      simp [Compares]
    · refine ⟨_, _, rfl, ?_, (key fun x => decide (x ≥ t)).2⟩
      refine ((key fun x => decide (x ≥ t)).1).trans ?_
      simp [Compares]
    · refine ⟨_, _, rfl, ?_, (key fun x => decide (x ≤ t)).2⟩
      refine ((key fun x => decide (x ≤ t)).1).trans ?_
      simp [Compares]
  · intro h
    simp only [List.mem_cons, List.not_mem_nil, or_false, not_or] at h
    simp [threshold, h]

example : threshold "gte" 2 [(1, false), (2, false), (3, true), (4, false)] = .ok (2, false) := by decide +kernel

/-- C48: the between index is the number of unmasked steps in the closed range, masked exactly if there is no unmasked step; an empty
range is refused. -/
theorem C48_between (lower upper : Rat) (values : List (Cell Rat)) :
    (lower ≤ upper → ∃ n m, between lower upper values = .ok (n, m) ∧
      n = (values.filter fun c => decide (c.2 = false ∧ lower ≤ c.1 ∧ c.1 ≤ upper)).length ∧ (m = true ↔ ∀ c ∈ values, c.2 = true)) ∧
    (upper < lower → between lower upper values = .error .assertionError) := by
  refine ⟨?_, ?_⟩
  · intro h
    refine ⟨_, _, by rw [between, if_pos h, maSum], ?_, ?_⟩
    · rw [List.countP_map, List.countP_eq_length_filter]
      congr 1
      apply List.filter_congr
      intro c _
      rcases c with ⟨x, m⟩
      cases m <;> simp [Bool.decide_and]
    · simp only [List.all_map, List.all_eq_true, Function.comp]
  · intro h
    rw [between, if_neg]
    exact Rat.not_le.2 h

example : between 2 3 [(1, false), (2, false), (3, false), (5/2, true)] = .ok (2, false) := by decide +kernel

end Ocgis.Props
