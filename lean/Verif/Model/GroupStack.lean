import Verif.Py
/-!
# Groups stacked along a dimension

Models `VariableCollection.groups_to_variable` (variable/base.py:2003-2051) with the parts of the collection it uses.  Values are rational
numbers at lists of positions; a type is that of integers or of real numbers.  Variables have their values; units and fill values are among the
attributes.  The new variable is given a name and one dimension by name.
-/
namespace Ocgis.GroupStack

/-- A dimension: name, length, and whether it is unlimited. -/
structure Dim where
  name : String
  size : Nat
  unlimited : Bool := false
  deriving DecidableEq, Repr

/-- The type of values. -/
inductive Ty
  | int
  | real
  deriving DecidableEq, Repr

/-- A variable: name, dimensions, type, values, masked positions, attributes, and the name of its bounds. -/
structure Var where
  name : String
  dims : List Dim
  ty : Ty
  val : List Nat → Rat
  mask : List Nat → Bool := fun _ => false
  attrs : List (String × String) := []
  bounds : Option String := none

/-- A collection without its own groups: variables in their order, and dimensions. -/
structure Coll where
  vars : List Var
  dims : List Dim

/-- The variable of groups that is made (variable/base.py:2014-2018): name, dimension, and the names of the groups. -/
structure Labels where
  name : String
  dim : Dim
  labels : List String
  deriving DecidableEq, Repr

/-- What is returned: the collection and the variable of groups. -/
structure Result where
  coll : Coll
  labels : Labels

/-- Conversion to a type when values are set in an array: the part of a number after the point is dropped. -/
def cast : Ty → Rat → Rat
  | .int, q => if 0 ≤ q then q.floor else q.ceil
  | .real, q => q

/-- Whether numpy sets an array of one shape into another one, both from the last dimension on. -/
def fitsRev : List Nat → List Nat → Bool
  | [], _ => true
  | s :: ss, d :: ds => (s == d || s == 1) && fitsRev ss ds
  | s :: ss, [] => s == 1 && fitsRev ss []

/-- The position in the source for a position in the target, both from the last dimension on. -/
def pickRev : List Nat → List Nat → List Nat
  | [], _ => []
  | s :: ss, i :: is => (if s = 1 then 0 else i) :: pickRev ss is
  | _ :: ss, [] => 0 :: pickRev ss []

/-- `target[:] = source`: may it be done. -/
def fits (src dst : List Nat) : Bool := fitsRev src.reverse dst.reverse

/-- `target[:] = source`: the position that is read. -/
def pick (src ix : List Nat) : List Nat := (pickRev src.reverse ix.reverse).reverse

/-- The lengths of a variable. -/
def Var.shape (v : Var) : List Nat := v.dims.map (·.size)

/-- Whether a variable has a dimension. -/
def Var.has (v : Var) (dim : String) : Bool := v.dims.any fun d => d.name == dim

/-- `collection[name]`. -/
def Coll.get? (c : Coll) (name : String) : Option Var := c.vars.find? fun v => v.name == name

/-- The place of a dimension among the dimensions of a variable. -/
def axisOf (dims : List Dim) (dim : String) : Nat := dims.findIdx fun d => d.name == dim

/-- The dimensions of the stacked variable (variable/base.py:2031-2037). -/
def stackDims (dims : List Dim) (dim : String) (n : Nat) : List Dim :=
  dims.map fun d => { name := d.name, size := if d.name = dim then n else d.size }

/-- The lengths of the part of the stacked variable for one group (variable/base.py:2044). -/
def slabShape (dims : List Dim) (dim : String) : List Nat := dims.map fun d => if d.name = dim then 1 else d.size

/-- Filling the part for one group (variable/base.py:2041-2045). -/
def fill (v : Var) (dim : String) (ii : Nat) (src : Var) (val : List Nat → Rat) : Res (List Nat → Rat) :=
  if fits src.shape (slabShape v.dims dim) then
    .ok fun ix => if ix[axisOf v.dims dim]? = some ii then cast v.ty (src.val (pick src.shape (ix.set (axisOf v.dims dim) 0))) else val ix
  else .error .valueError

/-- The loop over the groups (variable/base.py:2041-2045), from a group on. -/
def fillAll (v : Var) (dim : String) : Nat → List Coll → (List Nat → Rat) → Res (List Nat → Rat)
  | _, [], val => .ok val
  | ii, c :: cs, val => match c.get? v.name with
    | none => .error .keyError
    | some src => match fill v dim ii src val with
      | .error e => .error e
      | .ok val' => fillAll v dim (ii + 1) cs val'

/-- `remove_variable(name)` (variable/base.py:2194-2224): bounds go with the variable, and dimensions of them that no variable has any more. -/
def remove (c : Coll) (name : String) : Res Coll :=
  match c.get? name with
  | none => .error .keyError
  | some v =>
    let gone : List String := name :: (match v.bounds with
      | none => []
      | some b => if (c.get? b).isSome then [b] else [])
    let vars := c.vars.filter fun w => ! gone.contains w.name
    let check := (c.vars.filter fun w => gone.contains w.name).flatMap (·.dims)
    .ok { vars := vars
          dims := c.dims.filter fun d => ! (check.any fun e => e.name == d.name) || vars.any fun w => w.has d.name }

/-- `add_dimension(dimension)` (variable/base.py:1826-1843). -/
def addDim (dims : List Dim) (d : Dim) : Res (List Dim) :=
  match dims.find? fun e => e.name == d.name with
  | none => .ok (dims ++ [d])
  | some e => if e = d then .ok dims else .error .dimensionMismatch

/-- `add_dimension` for several dimensions (variable/base.py:1873-1874). -/
def addDims : List Dim → List Dim → Res (List Dim)
  | dims, [] => .ok dims
  | dims, d :: ds => match addDim dims d with
    | .error e => .error e
    | .ok dims' => addDims dims' ds

/-- `add_variable(variable)` (variable/base.py:1850-1877) for a variable on its own. -/
def addVar (c : Coll) (v : Var) : Res Coll :=
  match addDims c.dims v.dims with
  | .error e => .error e
  | .ok dims => if (c.get? v.name).isSome then .error .variableInCollection else .ok { vars := c.vars ++ [v], dims := dims }

/-- The stacked variable before it is filled (variable/base.py:2038-2039); values are set to the fill value, here zero. -/
def blank (v : Var) (dim : String) (n : Nat) : Var :=
  { name := v.name, dims := stackDims v.dims dim n, ty := v.ty, val := fun _ => 0 }

/-- One variable (variable/base.py:2028-2047). -/
def stackOne (groups : List Coll) (dim : String) (n : Nat) (ret : Coll) (v : Var) : Res Coll :=
  match remove ret v.name with
  | .error e => .error e
  | .ok ret' => match fillAll v dim 0 groups (fun _ => 0) with
    | .error e => .error e
    | .ok val => addVar ret' { blank v dim n with val := val }

/-- All variables (variable/base.py:2028-2047). -/
def stackAll (groups : List Coll) (dim : String) (n : Nat) : Coll → List Var → Res Coll
  | ret, [] => .ok ret
  | ret, v :: vs => match stackOne groups dim n ret v with
    | .error e => .error e
    | .ok ret' => stackAll groups dim n ret' vs

/-- `collection.groups_to_variable(name=name, dimensions=dim)` (variable/base.py:2003-2051). The groups are given with their names in their
order. -/
def groupsToVariable (groups : List (String × Coll)) (name dim : String) : Res Result :=
  match groups with
  | [] => .error .attributeError
  | first :: _ =>
    let n := groups.length
    match stackAll (groups.map (·.2)) dim n first.2 (first.2.vars.filter fun v => v.has dim) with
    | .error e => .error e
    | .ok c => match addDim c.dims { name := dim, size := n } with
      | .error e => .error e
      | .ok dims =>
        if (c.get? name).isSome then .error .variableInCollection
        else .ok { coll := { c with dims := dims }, labels := { name := name, dim := { name := dim, size := n }, labels := groups.map (·.1) } }

end Ocgis.GroupStack
