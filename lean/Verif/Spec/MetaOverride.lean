import Verif.Model.MetaOverride
/-!
# Attributes given for a calculation
-/
namespace Ocgis.Spec
open Ocgis.MetaOverride

/-- Every key is there once. -/
def KeysOnce {α} (d : List (String × α)) : Prop := (d.map (·.1)).Nodup

/-- `after` has the attributes given, with their values, and besides them those of `before`. -/
def OverriddenBy {V} (before given after : List (String × V)) : Prop :=
  ∀ k, after.lookup k = match given.lookup k with
    | some v => some v
    | none => before.lookup k

/-- The attributes as they are given flat. -/
def flat {V} (d : List (String × V)) : List (String × Given V) := d.map fun x => (x.1, .leaf x.2)

end Ocgis.Spec
