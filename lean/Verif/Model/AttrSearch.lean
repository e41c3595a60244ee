import Verif.Py
/-!
# Looking for variables by an attribute

Models `VariableCollection.find_by_attribute` (variable/base.py:1937-1968) and `find_variable_by_attribute` (driver/base.py:979-985).  The value
of an attribute is `none` for `None`; values are compared by equality of values, so that arrays, whose `==` is no truth value, are left out.
-/
namespace Ocgis.AttrSearch

/-- A variable: its name and its attributes. -/
structure Tagged (V : Type) where
  name : String
  attrs : List (String × Option V)
  deriving DecidableEq

/-- The branches on `value` and `pred` (variable/base.py:1960-1965). -/
def matchOne {V} [DecidableEq V] (value : Option V) (pred : Option (Option V → Bool)) (a : Option V) : Res Bool :=
  match value, pred with
  | some x, _ => .ok (a = some x)
  | none, some p => .ok (p a)
  | none, none => .error .valueError

/-- The loop over the keys (variable/base.py:1958-1967): what is appended for one variable. -/
def collect {V} [DecidableEq V] (value : Option V) (pred : Option (Option V → Bool)) (v : Tagged V) : List (Option V) → Res (List (Tagged V))
  | [] => .ok []
  | a :: l => (matchOne value pred a).bind fun m => (collect value pred v l).bind fun r => .ok (if m then v :: r else r)

/-- The attribute values that are looked at (variable/base.py:1953-1959). -/
def looked {V} (key : Option String) (v : Tagged V) : List (Option V) :=
  match key with
  | none => v.attrs.map (·.2)
  | some k => match v.attrs.lookup k with
    | none => []
    | some a => [a]

/-- `find_by_attribute` (variable/base.py:1951-1968). -/
def find {V} [DecidableEq V] (key : Option String) (value : Option V) (pred : Option (Option V → Bool)) : List (Tagged V) → Res (List (Tagged V))
  | [] => .ok []
  | v :: vs => (collect value pred v (looked key v)).bind fun r => (find key value pred vs).bind fun rs => .ok (r ++ rs)

/-- `find_variable_by_attribute` (driver/base.py:979-985), on the metadata of the variables. -/
def findNames {V} [DecidableEq V] (name : String) (value : Option V) (vars : List (Tagged V)) : List String :=
  vars.flatMap fun v => v.attrs.filterMap fun (k, a) => if k = name ∧ a = value then some v.name else none

end Ocgis.AttrSearch
