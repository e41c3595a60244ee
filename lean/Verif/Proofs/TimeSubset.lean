import Verif.Spec.TimeSubset
/-!
# Lemmas
-/
namespace Ocgis.Props
open Ocgis.Temporal Ocgis.Spec

theorem foldl_min_spec (xs : List Int) : ∀ x, (xs.foldl min x = x ∨ xs.foldl min x ∈ xs) ∧ xs.foldl min x ≤ x ∧ ∀ y ∈ xs, xs.foldl min x ≤ y := by
  induction xs with
  | nil => intro x; simp
  | cons a as ih =>
    intro x
    obtain ⟨h1, h2, h3⟩ := ih (min x a)
    simp only [List.foldl_cons, List.mem_cons]
    refine ⟨?_, by omega, ?_⟩
    · rcases h1 with h | h
      · rw [h]; rcases Int.le_total x a with hh | hh
        · left; omega
        · right; left; omega
      · exact .inr (.inr h)
    · rintro y (rfl | hy)
      · omega
      · exact h3 y hy

theorem foldl_max_spec (xs : List Int) : ∀ x, (xs.foldl max x = x ∨ xs.foldl max x ∈ xs) ∧ x ≤ xs.foldl max x ∧ ∀ y ∈ xs, y ≤ xs.foldl max x := by
  induction xs with
  | nil => intro x; simp
  | cons a as ih =>
    intro x
    obtain ⟨h1, h2, h3⟩ := ih (max x a)
    simp only [List.foldl_cons, List.mem_cons]
    refine ⟨?_, by omega, ?_⟩
    · rcases h1 with h | h
      · rw [h]; rcases Int.le_total x a with hh | hh
        · right; left; omega
        · left; omega
      · exact .inr (.inr h)
    · rintro y (rfl | hy)
      · omega
      · exact h3 y hy

theorem minMax_spec (xs : List Int) (h : xs ≠ []) : ∃ a b, minMax xs = .ok (a, b) ∧ a ∈ xs ∧ b ∈ xs ∧ ∀ x ∈ xs, a ≤ x ∧ x ≤ b := by
  cases xs with
  | nil => exact absurd rfl h
  | cons x xs =>
    obtain ⟨a1, a2, a3⟩ := foldl_min_spec xs x
    obtain ⟨b1, b2, b3⟩ := foldl_max_spec xs x
    refine ⟨_, _, rfl, ?_, ?_, ?_⟩
    · rcases a1 with h | h
      · rw [h]; simp
      · exact List.mem_cons_of_mem _ h
    · rcases b1 with h | h
      · rw [h]; simp
      · exact List.mem_cons_of_mem _ h
    · intro y hy
      rcases List.mem_cons.1 hy with rfl | hy
      · exact ⟨a2, b2⟩
      · exact ⟨a3 y hy, b3 y hy⟩

theorem year_mono (cal : Calendar) (hc : YearsInOrder cal) (t : Int) (k : Nat) : cal.year t ≤ cal.year (t + k) := by
  induction k with
  | zero => simp
  | succ k ih =>
    have := hc (t + k)
    have e : t + ((k + 1 : Nat) : Int) = t + k + 1 := by omega
    rw [e]; omega

theorem year_between (cal : Calendar) (hc : YearsInOrder cal) (t : Int) (k : Nat) (y : Int) (h1 : cal.year t ≤ y)
    (h2 : y ≤ cal.year (t + k)) : ∃ j : Nat, j ≤ k ∧ cal.year (t + j) = y := by
  induction k with
  | zero => exact ⟨0, by omega, by simp at h2 ⊢; omega⟩
  | succ k ih =>
    by_cases h : y ≤ cal.year (t + k)
    · obtain ⟨j, hj, he⟩ := ih h; exact ⟨j, by omega, he⟩
    · have := hc (t + k)
      have e : t + ((k + 1 : Nat) : Int) = t + k + 1 := by omega
      rw [e] at h2
      exact ⟨k + 1, by omega, by rw [e]; omega⟩

theorem yearOccurs_iff (cal : Calendar) (hc : YearsInOrder cal) (t0 t1 y : Int) (h : t0 ≤ t1) :
    YearOccurs cal t0 t1 y ↔ cal.year t0 ≤ y ∧ y ≤ cal.year t1 := by
  constructor
  · rintro ⟨t, h1, h2, rfl⟩
    have a := year_mono cal hc t0 (t - t0).toNat
    have b := year_mono cal hc t (t1 - t).toNat
    rw [show t0 + ((t - t0).toNat : Int) = t from by omega] at a
    rw [show t + ((t1 - t).toNat : Int) = t1 from by omega] at b
    exact ⟨a, b⟩
  · rintro ⟨h1, h2⟩
    obtain ⟨j, hj, he⟩ := year_between cal hc t0 (t1 - t0).toNat y h1 (by
      rw [show t0 + ((t1 - t0).toNat : Int) = t1 from by omega]; exact h2)
    exact ⟨t0 + j, by omega, by omega, he⟩

theorem rangeMonths_sound (cal : Calendar) (stop : Int) (fuel : Nat) : ∀ (current : Int) (acc : List Int) (m : Int),
    m ∈ rangeMonths cal stop fuel current acc → m ∈ acc ∨ ∃ t, current < t ∧ t ≤ stop + 59 ∧ cal.month t = m := by
  induction fuel with
  | zero => intro c acc m h; exact .inl h
  | succ fuel ih =>
    intro c acc m h
    rw [rangeMonths] at h
    split at h
    · rename_i hle
      have hacc : ∀ m, m ∈ addMonth acc (cal.month (c + 59)) →
          m ∈ acc ∨ m = cal.month (c + 59) := by
        intro m hm
        unfold addMonth at hm
        split at hm
        · exact .inl hm
        · rcases List.mem_cons.1 hm with h | h
          · exact .inr h
          · exact .inl h
      split at h
      · rcases hacc m h with h | h
        · exact .inl h
        · exact .inr ⟨c + 59, by omega, by omega, h.symm⟩
      · rcases ih _ _ _ h with h | ⟨t, h1, h2, h3⟩
        · rcases hacc m h with h | h
          · exact .inl h
          · exact .inr ⟨c + 59, by omega, by omega, h.symm⟩
        · exact .inr ⟨t, by omega, h2, h3⟩
    · exact .inl h

theorem rangeMonths_acc (cal : Calendar) (stop : Int) (fuel : Nat) : ∀ (current : Int) (acc : List Int) (m : Int),
    m ∈ acc → m ∈ rangeMonths cal stop fuel current acc := by
  induction fuel with
  | zero => intro c acc m h; exact h
  | succ fuel ih =>
    intro c acc m h
    rw [rangeMonths]
    split
    · have : m ∈ addMonth acc (cal.month (c + 59)) := by
        unfold addMonth
        split
        · exact h
        · exact List.mem_cons_of_mem _ h
      split
      · exact this
      · exact ih _ _ _ this
    · exact h

/-- The months of the moments looked at, unless all twelve have been seen before. -/
theorem rangeMonths_complete (cal : Calendar) (hm : ∀ t, 1 ≤ cal.month t ∧ cal.month t ≤ 12) (stop : Int) (fuel : Nat) :
    ∀ (current : Int) (acc : List Int), acc.Nodup → (∀ m ∈ acc, 1 ≤ m ∧ m ≤ 12) → ∀ k : Nat, k < fuel → current + 59 * k ≤ stop →
      cal.month (current + 59 * (k + 1)) ∈ rangeMonths cal stop fuel current acc := by
  have full : ∀ acc : List Int, acc.Nodup → (∀ m ∈ acc, 1 ≤ m ∧ m ≤ 12) → acc.length = 12 → ∀ m, 1 ≤ m → m ≤ 12 → m ∈ acc := by
    intro acc hnd hr hl m h1 h2
    by_cases hmem : m ∈ acc
    · exact hmem
    · exfalso
      have hsub : (m :: acc).Nodup := List.nodup_cons.2 ⟨hmem, hnd⟩
      have hle : (m :: acc).length ≤ ([1, 2, 3, 4, 5, 6, 7, 8, 9, 10, 11, 12] : List Int).length := by
        apply List.Nodup.length_le_of_subset hsub
        intro x hx
        have : 1 ≤ x ∧ x ≤ 12 := by
          rcases List.mem_cons.1 hx with rfl | hx
          · exact ⟨h1, h2⟩
          · exact hr x hx
        simp; omega
      simp at hle; omega
  induction fuel with
  | zero => intro c acc _ _ k hk; omega
  | succ fuel ih =>
    intro c acc hnd hr k hk hle
    rw [rangeMonths]
    rw [if_pos (by omega)]
    have hnd' : (addMonth acc (cal.month (c + 59))).Nodup := by
      unfold addMonth
      split
      · exact hnd
      · rename_i h; exact List.nodup_cons.2 ⟨by simpa using h, hnd⟩
    have hr' : ∀ m ∈ addMonth acc (cal.month (c + 59)), 1 ≤ m ∧ m ≤ 12 := by
      intro m hmm
      unfold addMonth at hmm
      split at hmm
      · exact hr m hmm
      · rcases List.mem_cons.1 hmm with rfl | h
        · exact hm _
        · exact hr m h
    have hin : cal.month (c + 59) ∈ addMonth acc (cal.month (c + 59)) := by
      unfold addMonth
      split
      · rename_i h; simpa using h
      · simp
    split
    · rename_i hl
      exact full _ hnd' hr' hl _ (hm _).1 (hm _).2
    · cases k with
      | zero =>
        apply rangeMonths_acc
        simpa using hin
      | succ k =>
        have := ih (c + 59) _ hnd' hr' k (by omega) (by omega)
        rwa [show c + 59 + 59 * ((k : Int) + 1) = c + 59 * (((k + 1 : Nat) : Int) + 1) from by omega] at this

end Ocgis.Props
