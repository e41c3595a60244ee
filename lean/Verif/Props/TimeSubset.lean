import Verif.Proofs.TimeSubset
/-!
# C31: validation of a time range together with a time region
-/
namespace Ocgis.Props
open Ocgis.Temporal Ocgis.Spec

/-- C31: without a range, or without a region, there is nothing to refuse. -/
theorem C31_nothing_to_check (cal : Calendar) (range : Option (Int × Int)) (region : Option (Option (List Int) × Option (List Int)))
    (h : range = none ∨ region = none) : validateTimeSubset cal range region = .ok true := by
  unfold validateTimeSubset
  rcases h with rfl | rfl
  · rfl
  · cases range <;> rfl

/-- C31, years (partial: regions without months): accepted exactly when every year asked for occurs in the range. -/
theorem C31_years_partial (cal : Calendar) (hc : YearsInOrder cal) (t0 t1 : Int) (h : t0 ≤ t1) (ys : List Int) (hy : ys ≠ []) :
    ∃ b, validateTimeSubset cal (some (t0, t1)) (some (none, some ys)) = .ok b ∧
      (b = true ↔ ∀ y ∈ ys, YearOccurs cal t0 t1 y) := by
  obtain ⟨a, b, h1, ha, hb, h2⟩ := minMax_spec ys hy
  simp only [validateTimeSubset, checkYears, h1]
  refine ⟨_, rfl, ?_⟩
  simp only [Bool.and_eq_true, decide_eq_true_eq, yearOccurs_iff cal hc t0 t1 _ h]
  constructor
  · rintro ⟨⟨e1, e2⟩, e3, e4⟩ y hy
    have := h2 y hy; omega
  · intro hall
    have := hall a ha
    have := hall b hb
    omega

example : YearsInOrder calendar360 := by intro t; simp only [calendar360]; omega
example : validateTimeSubset gregorian (some (0, 1000)) (some (none, some [1970, 1971])) = .ok true := by decide +kernel
example : validateTimeSubset gregorian (some (0, 1000)) (some (none, some [1970, 1972])) = .ok false := by decide +kernel

/-- C31, months (partial: one month only, and only one direction): a month that is accepted occurs between the beginning of
the range and 29.5 days after its end. -/
theorem C31_month_sound_partial (cal : Calendar) (t0 t1 m : Int)
    (h : validateTimeSubset cal (some (t0, t1)) (some (some [m], none)) = .ok true) :
    MonthOccurs cal t0 (t1 + 59) m := by
  simp only [validateTimeSubset, checkMonths, minMax, List.foldl_nil] at h
  injection h with h
  simp only [Bool.and_self, List.contains_eq_mem, decide_eq_true_eq] at h
  rcases rangeMonths_sound cal t1 _ t0 [] m h with h | ⟨t, h1, h2, h3⟩
  · simp at h
  · exact ⟨t, by omega, h2, h3⟩

/-- C31, months (partial: the months of every 59th half day only): the month of every moment `t0 + 29.5 d · k` (`k ≥ 1`) in
the range is accepted. -/
theorem C31_month_accepted_partial (cal : Calendar) (hm : ∀ t, 1 ≤ cal.month t ∧ cal.month t ≤ 12) (t0 t1 : Int) (k : Nat)
    (hk : t0 + 59 * (k + 1) ≤ t1) :
    validateTimeSubset cal (some (t0, t1)) (some (some [cal.month (t0 + 59 * (k + 1))], none)) = .ok true := by
  have := rangeMonths_complete cal hm t1 (t1 - t0 + 59).toNat t0 [] List.nodup_nil (by simp) k (by omega) (by omega)
  simp [validateTimeSubset, checkMonths, minMax, this]

example (t : Int) : 1 ≤ calendar360.month t ∧ calendar360.month t ≤ 12 := by simp only [calendar360]; omega
example : validateTimeSubset gregorian (some (0, 236)) (some (some [3], none)) = .ok true := by decide +kernel

/-- C31 is false: February is accepted for a range from 15 to 20 January 1970. -/
theorem C31_month_after_range_counterexample :
    validateTimeSubset gregorian (some (28, 38)) (some (some [2], none)) = .ok true ∧ ¬MonthOccurs gregorian 28 38 2 := by
  refine ⟨by decide +kernel, ?_⟩
  rintro ⟨t, h1, h2, h3⟩
  have hall : ∀ k : Fin 11, gregorian.month (28 + (k.val : Int)) ≠ 2 := by decide +kernel
  have := hall ⟨(t - 28).toNat, by omega⟩
  rw [show (28 : Int) + ((t - 28).toNat : Int) = t from by omega] at this
  exact this h3

/-- C31 is false: January is refused for a range from 15 to 20 January 1970. -/
theorem C31_first_month_counterexample :
    validateTimeSubset gregorian (some (28, 38)) (some (some [1], none)) = .ok false ∧ MonthOccurs gregorian 28 38 1 :=
  ⟨by decide +kernel, 28, by omega, by omega, by decide +kernel⟩

/-- C31 is false: only the smallest and the largest month are looked at; June is accepted for a range from 15 November 1970
to 15 February 1971 if it is asked for together with January and December. -/
theorem C31_middle_month_counterexample :
    validateTimeSubset gregorian (some (636, 820)) (some (some [1, 6, 12], none)) = .ok true ∧ ¬MonthOccurs gregorian 636 820 6 := by
  refine ⟨by decide +kernel, ?_⟩
  rintro ⟨t, h1, h2, h3⟩
  have hall : ∀ k : Fin 185, gregorian.month (636 + (k.val : Int)) ≠ 6 := by decide +kernel
  have := hall ⟨(t - 636).toNat, by omega⟩
  rw [show (636 : Int) + ((t - 636).toNat : Int) = t from by omega] at this
  exact this h3

/-- C31 is false: February is stepped over in a range from 31 January 1970 to 30 November 1970. -/
theorem C31_february_counterexample :
    validateTimeSubset gregorian (some (60, 666)) (some (some [2], none)) = .ok false ∧ MonthOccurs gregorian 60 666 2 :=
  ⟨by decide +kernel, 70, by omega, by omega, by decide +kernel⟩

/-- C31, several months (partial: single months only as in the theorems above): a list of months is accepted exactly when
its smallest and its largest month are each accepted on their own. -/
theorem C31_several_months_partial (cal : Calendar) (t0 t1 : Int) (ms : List Int) (a b : Int) (ha : a ∈ ms) (hb : b ∈ ms)
    (hab : ∀ m ∈ ms, a ≤ m ∧ m ≤ b) :
    ∃ r, validateTimeSubset cal (some (t0, t1)) (some (some ms, none)) = .ok r ∧
      (r = true ↔ validateTimeSubset cal (some (t0, t1)) (some (some [a], none)) = .ok true ∧
        validateTimeSubset cal (some (t0, t1)) (some (some [b], none)) = .ok true) := by
  obtain ⟨a', b', h1, ha', hb', h2⟩ := minMax_spec ms (by intro h; simp [h] at ha)
  have e1 : a' = a := by have := hab a' ha'; have := h2 a ha; omega
  have e2 : b' = b := by have := hab b' hb'; have := h2 b hb; omega
  subst e1 e2
  have s1 : ∀ m : Int, minMax [m] = .ok (m, m) := fun _ => rfl
  simp only [validateTimeSubset, checkMonths, h1, s1, Except.ok.injEq, Bool.and_self]
  exact ⟨_, rfl, by simp⟩

example : validateTimeSubset gregorian (some (0, 236)) (some (some [3, 12], none)) = .ok false ∧
    validateTimeSubset gregorian (some (0, 236)) (some (some [3], none)) = .ok true := by decide +kernel

/-- C31, months and years: a region with both is accepted exactly when the months alone and the years alone are. -/
theorem C31_months_and_years (cal : Calendar) (t0 t1 : Int) (ms ys : List Int) (hm : ms ≠ []) (hy : ys ≠ []) :
    ∃ r, validateTimeSubset cal (some (t0, t1)) (some (some ms, some ys)) = .ok r ∧
      (r = true ↔ validateTimeSubset cal (some (t0, t1)) (some (some ms, none)) = .ok true ∧
        validateTimeSubset cal (some (t0, t1)) (some (none, some ys)) = .ok true) := by
  obtain ⟨a, b, h1, -⟩ := minMax_spec ms hm
  obtain ⟨c, d, h2, -⟩ := minMax_spec ys hy
  simp only [validateTimeSubset, checkMonths, checkYears, h1, h2, Except.ok.injEq]
  exact ⟨_, rfl, by simp [and_assoc]⟩

example : validateTimeSubset gregorian (some (0, 236)) (some (some [3], some [1980])) = .ok false ∧
    validateTimeSubset gregorian (some (0, 236)) (some (some [3], some [1970])) = .ok true := by decide +kernel

/-- C31: a region with neither months nor years is not accepted or refused; the call fails. -/
theorem C31_empty_region (cal : Calendar) (r : Int × Int) : validateTimeSubset cal (some r) (some (none, none)) = .error .typeError := rfl

end Ocgis.Props
