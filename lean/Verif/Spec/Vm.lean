import Verif.Model.Vm
/-!
# Conventions for scope names, and the serial communicator's history
-/
namespace Ocgis.Spec
open Ocgis.Vm

/-- A statement leaves the scopes `active` around it alone: it neither creates nor frees their names by hand, and
does not open another scope of the same name for an empty list of ranks. -/
def Respects : List String → Prog → Prop
  | _, .skip | _, .raise _ | _, .set _ => True
  | A, .seq a b => Respects A a ∧ Respects A b
  | A, .attempt a => Respects A a
  | A, .scope name ranks body => (name ∈ A → ranks ≠ []) ∧ Respects (name :: A) body
  | A, .byName _ body => Respects A body
  | A, .scopedBarrier _ _ body => Respects A body
  | A, .create name _ _ _ => name ∉ A
  | A, .free name => name ∉ A

/-- The payload waiting for `source` and `tag` after a history: the latest send to them, unless received since. -/
def waiting (history : List Op) (source : Nat) (tag : Int) : Option Int :=
  match history.reverse.find? (fun op => match op with
    | .send _ d t => d == source && t == tag
    | .wait s t => s == source && t == tag
    | .test _ _ => false) with
  | some (.send p _ _) => some p
  | _ => none

end Ocgis.Spec
