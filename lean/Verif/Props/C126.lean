import Verif.Proofs.TemplateTime
/-!
# C126: Times written as dates
-/
namespace Ocgis.Props
open Spec Ocgis.TemplateTime Proofs.TemplateTime

/-- A number of a date with a year of four digits is that date, with the hour and the minute the fraction is in. Missing: other years (below), and the
seconds (`C126_seconds_never`). -/
theorem C126_date_partial (year month day : Nat) (hy : 1000 ≤ year ∧ year ≤ 9999) (hm : month < 100) (hd : day < 100) (f : Rat) (h0 : 0 ≤ f)
    (h1 : f < 1) : ∃ hour minute, hour < 24 ∧ InMinute f hour minute ∧ parts (dateNumber year month day f) = .ok ⟨year, month, day, hour, minute⟩ := by
  refine ⟨_, _, ?_, minute_of f h0, ?_⟩
  · have e1 := nat_floor (24 * f) (by grind)
    have a1 := Rat.floor_le (24 * f)
    have : (((24 * f).floor : Int) : Rat) < ((24 : Int) : Rat) := by
      have : ((24 : Int) : Rat) = 24 := rfl
      grind
    have := Rat.intCast_lt_intCast.1 this
    omega
  · rw [dateNumber, parts_eq _ f h0 h1 _ _ (minute_of f h0), digits8 _ (by omega) (by omega)]
    have e1 : (year * 10000 + month * 100 + day) / 10000 = year := by omega
    have e2 : (year * 10000 + month * 100 + day) / 100 % 100 = month := by omega
    have e3 : (year * 10000 + month * 100 + day) % 100 = day := by omega
    rw [e1, e2, e3]
    rfl

example : parts (dateNumber 2001 12 31 (3 / 4)) = .ok ⟨2001, 12, 31, 18, 0⟩ := by decide +kernel

/-- A number of a year of three digits is another date, in a year ten times as late. -/
theorem C126_early_never (year month day : Nat) (hy : 100 ≤ year ∧ year ≤ 999) (hm : month < 100) (hd : day < 100) (f : Rat) (h0 : 0 ≤ f)
    (h1 : f < 1) : ∃ p, parts (dateNumber year month day f) = .ok p ∧ p.year = 10 * year + month / 10 ∧
      p.month = 10 * (month % 10) + day / 10 ∧ p.day = day % 10 ∧ p.year ≠ year := by
  refine ⟨_, by rw [dateNumber, parts_eq _ f h0 h1 _ _ (minute_of f h0), digits7 _ (by omega) (by omega)]; rfl, ?_, ?_, ?_, ?_⟩ <;> simp only <;> omega

example : parts (dateNumber 500 1 1 0) = .ok ⟨5000, 10, 1, 0, 0⟩ := by decide +kernel

/-- Earlier years are refused, whatever the date. -/
theorem C126_ancient_never (year month day : Nat) (hy : year ≤ 99) (hm : month < 100) (hd : day < 100) (f : Rat) (h0 : 0 ≤ f) (h1 : f < 1) :
    parts (dateNumber year month day f) = .error .valueError := by
  rw [dateNumber, parts_eq _ f h0 h1 _ _ (minute_of f h0), digits6 _ (by omega)]
  rfl

example : parts (dateNumber 99 12 31 0) = .error .valueError := by decide +kernel

/-- A number of a year of five digits is another date, too. -/
theorem C126_late_never (year month day : Nat) (hy : 10000 ≤ year ∧ year ≤ 99999) (hm : month < 100) (hd : day < 100) (f : Rat) (h0 : 0 ≤ f)
    (h1 : f < 1) : ∃ p, parts (dateNumber year month day f) = .ok p ∧ p.year = year / 10 ∧ p.month = 10 * (year % 10) + month / 10 ∧
      p.day = 10 * (month % 10) + day / 10 ∧ p.year ≠ year := by
  refine ⟨_, by rw [dateNumber, parts_eq _ f h0 h1 _ _ (minute_of f h0), digits9 _ (by omega) (by omega)]; rfl, ?_, ?_, ?_, ?_⟩ <;> simp only <;> omega

example : parts (dateNumber 10001 12 25 0) = .ok ⟨1000, 11, 22, 0, 0⟩ := by decide +kernel

/-- Times in the same minute cannot be told apart. -/
theorem C126_seconds_never (date hour minute : Nat) (f g : Rat) (hf : 0 ≤ f ∧ f < 1) (hg : 0 ≤ g ∧ g < 1) (h1 : InMinute f hour minute)
    (h2 : InMinute g hour minute) : parts ((date : Rat) + f) = parts ((date : Rat) + g) := by
  rw [parts_eq date f hf.1 hf.2 _ _ h1, parts_eq date g hg.1 hg.2 _ _ h2]

example : parts (20010101 + 1 / 86400) = parts (20010101 + 59 / 86400) := by decide +kernel

end Ocgis.Props
