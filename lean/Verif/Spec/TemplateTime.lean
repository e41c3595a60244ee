import Verif.Model.TemplateTime
/-!
# Which time is written
-/
namespace Ocgis.Spec
open TemplateTime

/-- The number with a year, a month and a day of two digits, and a fraction of the day. -/
def dateNumber (year month day : Nat) (fraction : Rat) : Rat := ((year * 10000 + month * 100 + day : Nat) : Rat) + fraction

/-- The hour and minute that a fraction of a day is in. -/
def InMinute (fraction : Rat) (hour minute : Nat) : Prop :=
  minute < 60 ∧ ((hour * 60 + minute : Nat) : Rat) ≤ fraction * 1440 ∧ fraction * 1440 < ((hour * 60 + minute + 1 : Nat) : Rat)

end Ocgis.Spec
