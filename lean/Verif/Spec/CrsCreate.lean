import Verif.Model.CrsCreate
/-!
# Which coordinate system a definition means
-/
namespace Ocgis.Spec
open CrsCreate

/-- The first value of a key in a definition. -/
def DefHas (d : Def) (k : String) (v : Val) : Prop := ∃ a b, d = a ++ (k, v) :: b ∧ ∀ e ∈ a, e.1 ≠ k

/-- A key a definition does not have. -/
def DefLacks (d : Def) (k : String) : Prop := ∀ e ∈ d, e.1 ≠ k

/-- The datum shift, if there is one, is none. -/
def NoShift (d : Def) : Prop := DefHas d "towgs84" zeros ∨ DefLacks d "towgs84"

/-- Longitudes and latitudes on the sphere of the default radius. -/
def OnSphere (d : Def) : Prop :=
  DefHas d "proj" longlat ∧ DefHas d "a" (.num 6370997) ∧ DefHas d "b" (.num 6370997) ∧ NoShift d

/-- Longitudes and latitudes of the datum WGS84. -/
def OnWgs84 (d : Def) : Prop := DefHas d "proj" longlat ∧ DefHas d "datum" datum84 ∧ NoShift d

end Ocgis.Spec
