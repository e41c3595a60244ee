import Verif.Proofs.FreezeFrame
/-!
# C131: The calculation of freeze and thaw
-/
namespace Ocgis.Props
open Spec Ocgis.FreezeFrame Proofs.FreezeFrame

/-- With daily data of at least two days, in degrees Celsius, or the same temperatures in Kelvin, the answer is the number of transitions of every
series. Missing: the units of the variable that is calculated with (`C131_units_never`). -/
theorem C131_daily_partial (clock : Clock) (hd : Daily clock) (h2 : 2 ≤ timesOf clock) (others : List TempUnits)
    (celsius : List (List (Series.Cell Rat))) (threshold : Rat) :
    calculate clock (.celsius :: others) celsius threshold = .ok (celsius.map fun x => Series.freezeThaw x threshold) ∧
    calculate clock (.kelvin :: others) (celsius.map inKelvin) threshold = .ok (celsius.map fun x => Series.freezeThaw x threshold) := by
  simp only [calculate, check_daily clock hd h2, conform, kelvin_all]
  exact ⟨rfl, rfl⟩

example : Daily (.dates [0, 86400, 172800]) ∧ 2 ≤ timesOf (.dates [0, 86400, 172800]) ∧
    calculate (.dates [0, 86400, 172800]) [.celsius] [[(-20, false), (20, false), (20, false)]] 15 = .ok [some 1] := by
  refine ⟨?_, by decide, by decide +kernel⟩
  intro i h
  match i, h with
  | 0, _ => exact rfl
  | 1, _ => exact rfl

/-- Data whose first two times are not a day apart are refused, and numbers in other units than days, and data of less than two times. -/
theorem C131_refused (clock : Clock) (units : List TempUnits) (values : List (List (Series.Cell Rat))) (threshold : Rat) :
    (∀ a b l, clock = .dates (a :: b :: l) → b - a ≠ 86400 → calculate clock units values threshold = .error .assertionError) ∧
    (∀ a b l, clock = .numbers true (a :: b :: l) → b - a ≠ 1 → calculate clock units values threshold = .error .assertionError) ∧
    (∀ a b l, clock = .numbers false (a :: b :: l) → calculate clock units values threshold = .error .notImplemented) ∧
    (timesOf clock < 2 → calculate clock units values threshold = .error .indexError) := by
  refine ⟨?_, ?_, ?_, ?_⟩
  · rintro a b l rfl h
    simp only [calculate, checkStep, if_neg h]
    rfl
  · rintro a b l rfl h
    simp only [calculate, checkStep, if_true, if_neg h]
    rfl
  · rintro a b l rfl
    rfl
  · intro h
    cases clock with
    | dates l =>
      match l, h with
      | [], _ => rfl
      | [a], _ => rfl
    | numbers d l =>
      match l, h with
      | [], _ => rfl
      | [a], _ => rfl

example : calculate (.dates [0, 43200]) [.celsius] [] 15 = .error .assertionError := by decide +kernel

/-- Later steps are not looked at: data of any times are taken for daily if the first two are a day apart. -/
theorem C131_later_never (a b : Int) (later later' : List Int) (units : List TempUnits) (values : List (List (Series.Cell Rat))) (threshold : Rat) :
    calculate (.dates (a :: b :: later)) units values threshold = calculate (.dates (a :: b :: later')) units values threshold := rfl

/-- So there are times that are not daily with an answer. -/
theorem C131_later_counterexample : ¬ Daily (.dates [0, 86400, 864000]) ∧
    calculate (.dates [0, 86400, 864000]) [.celsius] [[(-20, false), (20, false), (20, false)]] 15 = .ok [some 1] := by
  refine ⟨fun h => ?_, by decide +kernel⟩
  have := h 1 (by decide)
  simp at this

/-- Only the units of the first data variable of the field are used: those of the variable that is calculated with do not matter, and if the first is in
degrees Celsius, temperatures in Kelvin are taken for degrees Celsius. -/
theorem C131_units_never (clock : Clock) (first : TempUnits) (others others' : List TempUnits) (values : List (List (Series.Cell Rat))) (threshold : Rat) :
    calculate clock (first :: others) values threshold = calculate clock (first :: others') values threshold := rfl

/-- A frost that is counted in degrees Celsius is not counted in Kelvin if another variable, in degrees Celsius, comes first. -/
theorem C131_units_counterexample :
    calculate (.dates [0, 86400]) [.celsius, .kelvin] [inKelvin [(-20, false), (20, false)]] 15 = .ok [some 0] ∧
    calculate (.dates [0, 86400]) [.kelvin] [inKelvin [(-20, false), (20, false)]] 15 = .ok [some 1] := by decide +kernel

/-- With any other units the calculation fails with an error that does not name the units. -/
theorem C131_other_units_never (clock : Clock) (hd : Daily clock) (h2 : 2 ≤ timesOf clock) (others : List TempUnits)
    (values : List (List (Series.Cell Rat))) (threshold : Rat) : calculate clock (.other :: others) values threshold = .error .unboundLocal := by
  simp only [calculate, check_daily clock hd h2, conform]
  rfl

end Ocgis.Props
