import Verif.Model.Series
/-!
# The calculation of freeze and thaw

Models `FreezeThaw.calculate` (calc/library/index/freeze_thaw.py:18-49), with `freezethaw1d` as in `Series.freezeThaw`.  The time of the field is the
variable `time`; dates are in seconds.  `TempUnits` is what the two comparisons of units say: equal to `C`, else equal to `K`, else neither.  The
values are those of one variable, a series per place, with three dimensions; numbers are rational.
-/
namespace Ocgis.FreezeFrame

/-- What `field['time'].get_value()` is: dates, or numbers, with units that start with `days` or not. -/
inductive Clock where
  | dates (seconds : List Int)
  | numbers (startsWithDays : Bool) (values : List Rat)
  deriving DecidableEq

/-- Units, as they are compared (freeze_thaw.py:41-45). -/
inductive TempUnits where
  | celsius
  | kelvin
  | other
  deriving DecidableEq

/-- The check of the temporal resolution (freeze_thaw.py:29-37). -/
def checkStep : Clock → Res Unit
  | .dates (a :: b :: _) => if b - a = 86400 then .ok () else .error .assertionError
  | .dates _ => .error .indexError
  | .numbers days (a :: b :: _) =>
    if days then (if b - a = 1 then .ok () else .error .assertionError) else .error .notImplemented
  | .numbers _ _ => .error .indexError

/-- `values - 273.15` (freeze_thaw.py:46): masks stay. -/
def fromKelvin (x : List (Series.Cell Rat)) : List (Series.Cell Rat) := x.map fun c => (c.1 - 27315 / 100, c.2)

/-- The conversion (freeze_thaw.py:40-46): with other units the name `tas` is not bound. -/
def conform (u : TempUnits) (values : List (List (Series.Cell Rat))) : Res (List (List (Series.Cell Rat))) :=
  match u with
  | .celsius => .ok values
  | .kelvin => .ok (values.map fromKelvin)
  | .other => .error .unboundLocal

/-- `calculate(values, threshold)` (freeze_thaw.py:18-49), for the values of one of the data variables of the field, whose units are `units`: those of
the first are used.  A field without data variables has no values to calculate with. -/
def calculate (clock : Clock) (units : List TempUnits) (values : List (List (Series.Cell Rat))) (threshold : Rat) : Res (List (Option Int)) :=
  (checkStep clock).bind fun _ =>
    match units with
    | [] => .error .indexError
    | u :: _ => (conform u values).bind fun tas => .ok (tas.map fun x => Series.freezeThaw x threshold)

end Ocgis.FreezeFrame
