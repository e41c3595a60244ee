import Verif.Model.MetaOverride
/-!
# The variables of a file that is opened

Models `read_from_collection` (driver/nc.py:540-562) and `rename_variable_map` (driver/request/core.py:390-394).  A file is the names of its variables
and its groups; what is read is, per group, the name a variable has in the field and the name it has in the file.  The names of groups in a group are
different in a file, so that `add_child` is never refused.  What a variable is initialised with is left out.
-/
namespace Ocgis.NcCollect
open MetaOverride (assign)

/-- A group of the file. -/
inductive FileGroup where
  | mk (vars : List String) (groups : List (String × FileGroup))

/-- What is read: names in the field and in the file, and the children. -/
inductive Opened where
  | mk (vars : List (String × String)) (children : List (String × Opened))

/-- `rename_variable_map` (driver/request/core.py:391-394). -/
def renameMap (variables renames : List String) : List (String × String) :=
  (variables.zip renames).foldl (fun d x => assign d x.1 x.2) []

/-- `rename_variable_map.get(varname, varname)` (driver/nc.py:555). -/
def nameInField (m : List (String × String)) (n : String) : String := (m.lookup n).getD n

/-- The loop over the variables (driver/nc.py:551-557). -/
def readVars (pred : Option (String → Bool)) (m : List (String × String)) (names : List String) : List (String × String) :=
  names.foldl (fun d n => if pred.any (fun p => !p n) then d else assign d (nameInField m n) n) []

mutual
/-- `read_from_collection` (driver/nc.py:540-562). -/
def readGroup (pred : Option (String → Bool)) (m : List (String × String)) : FileGroup → Opened
  | .mk vars groups => .mk (readVars pred m vars) (readGroups pred m groups)
/-- The loop over the groups (driver/nc.py:559-561). -/
def readGroups (pred : Option (String → Bool)) (m : List (String × String)) : List (String × FileGroup) → List (String × Opened)
  | [] => []
  | (n, g) :: l => (n, readGroup pred m g) :: readGroups pred m l
end

end Ocgis.NcCollect
