import Verif.Py
/-!
# Attributes given for a calculation

Models `MetadataAttributes` (ops/parms/definition_helpers.py:1-35), how the parameter makes it (ops/parms/definition.py:241-248), and where the
attributes are put on the output variable and on the field (calc/base.py:394-396).  A value that is given is a dictionary, or something else that is
no text; the values in a dictionary are not looked into.  Dictionaries are lists of keys and values in the order of insertion.
-/
namespace Ocgis.MetaOverride

/-- A value that is given. -/
inductive Given (V : Type) where
  | leaf (v : V)
  | dict (d : List (String × V))
  deriving DecidableEq

/-- `d[k] = v`. -/
def assign {α} (d : List (String × α)) (k : String) (v : α) : List (String × α) :=
  match d with
  | [] => [(k, v)]
  | (k', v') :: d => if k' = k then (k', v) :: d else (k', v') :: assign d k v

/-- `d.update(e)`. -/
def updateBy {α} (d e : List (String × α)) : List (String × α) := e.foldl (fun d x => assign d x.1 x.2) d

/-- Is it a dictionary? -/
def isDict {V} : Given V → Bool
  | .leaf _ => false
  | .dict _ => true

/-- Flat attributes as a dictionary: `self.value['variable'] = other`, in which no value is a dictionary. -/
def leaves {V} (other : List (String × Given V)) : List (String × V) :=
  other.filterMap fun (k, g) => match g with
    | .leaf v => some (k, v)
    | .dict _ => none

/-- `merge` (ops/parms/definition_helpers.py:24-35). -/
def mergeIn {V} (value other : List (String × Given V)) : List (String × Given V) :=
  if other.any fun x => isDict x.2 then updateBy value other
  else assign value "variable" (.dict (leaves other))

/-- `__init__` (ops/parms/definition_helpers.py:16-19). -/
def initial {V} (other : List (String × Given V)) : List (String × Given V) :=
  mergeIn [("variable", .dict []), ("field", .dict [])] other

/-- `attrs.update(value[key])` (calc/base.py:395-396): something that is no dictionary is refused. -/
def overload {V} (attrs : List (String × V)) (value : List (String × Given V)) (key : String) : Res (List (String × V)) :=
  match value.lookup key with
  | none => .error .keyError
  | some (.leaf _) => .error .typeError
  | some (.dict d) => .ok (updateBy attrs d)

/-- The attributes of the output variable and of the field after a calculation (calc/base.py:394-396; ops/parms/definition.py:241-248). -/
def overloadBoth {V} (given : Option (List (String × Given V))) (variableAttrs fieldAttrs : List (String × V)) :
    Res (List (String × V) × List (String × V)) :=
  match given with
  | none => .ok (variableAttrs, fieldAttrs)
  | some other => (overload variableAttrs (initial other) "variable").bind fun v =>
    (overload fieldAttrs (initial other) "field").bind fun f => .ok (v, f)

end Ocgis.MetaOverride
