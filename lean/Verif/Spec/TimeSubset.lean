import Verif.Model.TimeSubset
/-!
# Time ranges
-/
namespace Ocgis.Spec
open Ocgis.Temporal

/-- The month occurs in the range. -/
def MonthOccurs (cal : Calendar) (t0 t1 m : Int) : Prop := ∃ t, t0 ≤ t ∧ t ≤ t1 ∧ cal.month t = m

/-- The year occurs in the range. -/
def YearOccurs (cal : Calendar) (t0 t1 y : Int) : Prop := ∃ t, t0 ≤ t ∧ t ≤ t1 ∧ cal.year t = y

/-- Years follow each other: from one half day to the next the year stays or goes up by one. -/
def YearsInOrder (cal : Calendar) : Prop := ∀ t, cal.year (t + 1) = cal.year t ∨ cal.year (t + 1) = cal.year t + 1

end Ocgis.Spec
