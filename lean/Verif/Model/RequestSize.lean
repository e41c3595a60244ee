import Verif.Py
/-!
# The estimated size of a request

Models `OcgOperations.get_base_request_size` (ops/core.py:218-289), the loop over collections (collection/spatial.py:169-180) and the number of
elements of a variable (variable/base.py:673-685).  The subsets the engine gives are the input.  Kilobytes are rational numbers.
-/
namespace Ocgis.RequestSize

/-- A variable: bytes of one element (`none` if it has no type) and lengths of its dimensions. -/
structure Var where
  name : String
  itemsize : Option Nat
  shape : List Nat
  deriving DecidableEq, Repr

/-- A field with its variables and those of its groups. -/
structure Field where
  name : String
  vars : List Var
  grouped : List Var
  deriving DecidableEq, Repr

/-- A request: whether there is a grid to regrid to, and the fields of each collection, one for each geometry and dataset. -/
structure Request where
  regrid : Bool
  colls : List (List Field)
  deriving DecidableEq, Repr

/-- `Variable.size` (variable/base.py:673-685). -/
def size (v : Var) : Nat := if v.shape.length = 0 then 0 else v.shape.foldl (· * ·) 1

/-- `_get_kb_` with the bytes of an array of one element; without a type it is an integer of eight bytes (ops/core.py:262-264). -/
def kb (v : Var) : Rat := (size v * v.itemsize.getD 8 : Nat) / 1024

/-- Setting a key of a dictionary: in its place if it is there, else at the end. -/
def setKey {β : Type} (k : String) (b : β) : List (String × β) → List (String × β)
  | [] => [(k, b)]
  | (k', b') :: l => if k' = k then (k, b) :: l else (k', b') :: setKey k b l

/-- The sizes of the variables of a field (ops/core.py:279-281). -/
def entries (f : Field) : List (String × Rat) := f.vars.foldl (fun curr v => setKey v.name (kb v) curr) []

/-- `iter_melted`: the field, once for each of its variables (collection/spatial.py:169-180). -/
def melted (coll : List Field) : List Field := coll.flatMap fun f => f.vars.map fun _ => f

/-- What is returned: the sizes of the fields and the total. -/
structure Report where
  fields : List (String × List (String × Rat))
  total : Rat
  deriving DecidableEq, Repr

/-- Summing the shown sizes (ops/core.py:283-287). -/
def sumUp (fields : List (String × List (String × Rat))) : Rat :=
  fields.foldl (fun t f => f.2.foldl (fun t v => t + v.2) t) 0

/-- `get_base_request_size` (ops/core.py:258-289). -/
def requestSize (r : Request) : Res Report :=
  if r.regrid then .error .definitionValidation
  else
    let fields := r.colls.foldl (fun ret coll => (melted coll).foldl (fun ret f => setKey f.name (entries f) ret) ret) []
    .ok { fields := fields, total := sumUp fields }

end Ocgis.RequestSize
