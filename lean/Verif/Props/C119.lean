import Verif.Proofs.VarResolution
/-!
# C119: The resolution of a coordinate variable
-/
namespace Ocgis.Props
open Spec Ocgis.VarResolution Proofs.VarResolution

/-- Without bounds the resolution is the mean distance of the first hundred successive values. Missing: no two of them that follow each other may
be on different sides of zero (`C119_crossing_never`). -/
theorem C119_values_partial (l : List Rat) (h : 2 ≤ l.length) (hc : ¬ Crosses (l.take 100)) :
    resolution ⟨l, none⟩ = .value (travelled (l.take 100) / ((min 100 l.length - 1 : Nat) : Rat)) := by
  rw [resolution_free l h, summed_eq (l.take limit) hc]
  rfl

example : resolution ⟨[1, 3, 6], none⟩ = .value (5/2) ∧ resolution ⟨[-1, -3, -6], none⟩ = .value (5/2) ∧
    resolution ⟨[-2, 0, 3], none⟩ = .value (5/2) := by decide +kernel

/-- If two successive values are on different sides of zero the resolution is too fine, always. -/
theorem C119_crossing_never (l : List Rat) (hc : Crosses (l.take 100)) :
    ∃ q, resolution ⟨l, none⟩ = .value q ∧ q < travelled (l.take 100) / ((min 100 l.length - 1 : Nat) : Rat) := by
  have h : 2 ≤ (l.take 100).length := by
    obtain ⟨i, a, b, -, hb, -⟩ := hc
    have := (List.getElem?_eq_some_iff.1 hb).1
    omega
  have h2 : 2 ≤ l.length := by
    rw [List.length_take] at h
    omega
  refine ⟨_, resolution_free l h2, ?_⟩
  have hlt := summed_lt (l.take limit) hc
  have hpos : (0 : Rat) < ((min limit l.length - 1 : Nat) : Rat) := by
    have : 0 < min limit l.length - 1 := by
      have : limit = 100 := rfl
      omega
    exact_mod_cast this
  show summed (l.take limit) / _ < travelled (l.take limit) / ((min limit l.length - 1 : Nat) : Rat)
  exact (Rat.div_lt_iff hpos).2 (by
    rw [Rat.div_mul_cancel (Ne.symm (Rat.ne_of_lt hpos))]
    exact hlt)

example : Crosses ([-1, 1] : List Rat) ∧ resolution ⟨[-1, 1], none⟩ = .value 0 ∧ resolution ⟨[-3, -1, 1, 3], none⟩ = .value (4/3) :=
  ⟨⟨0, -1, 1, rfl, rfl, Or.inl ⟨by decide +kernel, by decide +kernel⟩⟩, by decide +kernel, by decide +kernel⟩

/-- With bounds it is the mean width of the first hundred, whatever the values. -/
theorem C119_bounds (l : List Rat) (bs : List (Rat × Rat)) (h : bs ≠ []) :
    resolution ⟨l, some bs⟩ = .value (widths (bs.take 100) / ((min 100 bs.length : Nat) : Rat)) := by
  unfold resolution
  simp only
  have hl : ((bs.take limit).map fun b => abs (b.2 - b.1)).length = min limit bs.length := by
    rw [List.length_map, List.length_take]
  have hpos : 0 < bs.length := List.length_pos_iff.2 h
  unfold mean
  rw [if_neg (by rw [hl]; have : limit = 100 := rfl; omega), hl, bounds_total]
  rfl

example : resolution ⟨[0, 2], some [(-1, 1), (3, 1)]⟩ = .value 2 := by decide +kernel

/-- Values beyond the first hundred do not matter. -/
theorem C119_beyond (l more more' : List Rat) (h : l.length = 100) : resolution ⟨l ++ more, none⟩ = resolution ⟨l ++ more', none⟩ := by
  rw [resolution_free (l ++ more) (by rw [List.length_append]; omega), resolution_free (l ++ more') (by rw [List.length_append]; omega)]
  have h1 : ∀ m : List Rat, (l ++ m).take limit = l := fun m => List.take_left' h
  have h2 : ∀ m : List Rat, min limit (l ++ m).length = 100 := by
    intro m
    rw [List.length_append, h]
    show min 100 _ = 100
    omega
  rw [h1, h1, h2, h2]

/-- Less than two values without bounds are refused, and only those. -/
theorem C119_single (c : Coord) : resolution c = .resolutionError ↔ c.bounds = none ∧ c.values.length < 2 := by
  obtain ⟨l, bs⟩ := c
  cases bs with
  | none =>
    by_cases h : l.length < 2
    · simp [resolution, h]
    · rw [resolution_free l (by omega)]
      simp [h]
  | some bs =>
    unfold resolution mean
    simp only
    constructor
    · intro h
      split at h <;> cases h
    · rintro ⟨h, -⟩; cases h

/-- The report of a time variable shows whole days of the resolution, so data with steps shorter than a day have resolution nought. -/
theorem C119_report_partial (c : Coord) (q : Rat) (h : resolution c = .value q) (hq : 0 ≤ q) :
    ∃ n : Int, report true c = .days n ∧ (n : Rat) ≤ q ∧ q < n + 1 := by
  refine ⟨q.floor, ?_, Rat.floor_le q, ?_⟩
  · unfold report
    rw [if_pos rfl, h]
    simp only [trunc, if_pos hq]
  · have := Rat.lt_floor (x := q)
    grind

example : report true ⟨[0, 1/4, 1/2], none⟩ = .days 0 ∧ report true ⟨[5], none⟩ = .singleton ∧ report false ⟨[0, 1], none⟩ = .notFormatted := by
  decide +kernel

/-- The resolution is shown as the one of a single value exactly if it was refused. -/
theorem C119_report_single (c : Coord) : report true c = .singleton ↔ c.bounds = none ∧ c.values.length < 2 := by
  rw [← C119_single]
  unfold report
  rw [if_pos rfl]
  cases resolution c <;> simp

end Ocgis.Props
