import Verif.Model.FreezeFrame
/-!
# The calculation of freeze and thaw
-/
namespace Ocgis.Spec
open Ocgis.FreezeFrame

/-- The times of daily data: every step is a day. -/
def Daily : Clock → Prop
  | .dates l => ∀ i (h : i + 1 < l.length), l[i + 1] - l[i] = 86400
  | .numbers days l => days = true ∧ ∀ i (h : i + 1 < l.length), l[i + 1] - l[i] = 1

/-- How many times there are. -/
def timesOf : Clock → Nat
  | .dates l => l.length
  | .numbers _ l => l.length

/-- The same temperatures in Kelvin. -/
def inKelvin (x : List (Series.Cell Rat)) : List (Series.Cell Rat) := x.map fun c => (c.1 + 27315 / 100, c.2)

end Ocgis.Spec
