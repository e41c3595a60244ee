import Verif.Model.NcCollect
/-!
# The variables of a file that is opened
-/
namespace Ocgis.Spec
open Ocgis.NcCollect

/-- The variables of the group at a path of the file. -/
def varsInFile : FileGroup → List String → Option (List String)
  | .mk vars _, [] => some vars
  | .mk _ groups, n :: path => (groups.lookup n).bind fun g => varsInFile g path

/-- The variables of the child at a path of the field: the names in the field and in the file. -/
def varsInField : Opened → List String → Option (List (String × String))
  | .mk vars _, [] => some vars
  | .mk _ children, n :: path => (children.lookup n).bind fun g => varsInField g path

/-- The variables the predicate asks for: all if there is none. -/
def wantedVars (pred : Option (String → Bool)) (names : List String) : List String :=
  match pred with
  | none => names
  | some p => names.filter p

end Ocgis.Spec
