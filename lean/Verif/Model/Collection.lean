import Verif.Py
/-!
# Variable collections
-/
namespace Ocgis.Collection

/-- An ordered dictionary as an association list. -/
abbrev Dict (α : Type) := List (String × α)

/-- `d.get(key)`. -/
def Dict.get? {α : Type} (d : Dict α) (key : String) : Option α := (List.find? (fun kv => kv.1 == key) d).map (·.2)

/-- `key in d`. -/
def Dict.has {α : Type} (d : Dict α) (key : String) : Bool := List.any d fun kv => kv.1 == key

/-- `d[key] = value`. -/
def Dict.set {α : Type} (d : Dict α) (key : String) (value : α) : Dict α :=
  if Dict.has d key then List.map (fun kv => if kv.1 = key then (key, value) else kv) d else d ++ [(key, value)]

/-- `d.pop(key)` for a key that is there. -/
def Dict.erase {α : Type} (d : Dict α) (key : String) : Dict α := List.filter (fun kv => kv.1 != key) d

/-- What of a variable matters to its collection. -/
structure CVar where
  name : String
  dims : List String
  shape : List Nat
  bounds : Option String := none
  deriving DecidableEq, Repr

/-- A collection: dimensions with their sizes, variables, tags. Two dimensions are equal if their names and sizes are
(variable/dimension.py:266-293 also compares source indices and distribution). -/
structure Coll where
  dims : Dict Nat := []
  vars : Dict CVar := []
  tags : Dict (List String) := []
  deriving DecidableEq, Repr

/-- The collection after an operation, and the exception it ended with. -/
abbrev Outcome := Coll × Option PyErr

/-- `add_dimension(dimension, force)` (variable/base.py:1826-1843). -/
def addDim (c : Coll) (name : String) (size : Nat) (force : Bool) : Outcome :=
  match Dict.get? c.dims name with
  | some n =>
    if force then ({ c with dims := Dict.set c.dims name size }, none)
    else if n = size then (c, none) else (c, some .dimensionMismatch)
  | none => ({ c with dims := Dict.set c.dims name size }, none)

/-- The loop over the dimensions of the other collection (variable/base.py:1873-1874). -/
def addDims (force : Bool) : Coll → Dict Nat → Outcome
  | c, [] => (c, none)
  | c, (n, s) :: rest =>
    match addDim c n s force with
    | (c', some e) => (c', some e)
    | (c', none) => addDims force c' rest

/-- `add_variable(variable, force)` for a variable without a parent (variable/base.py:1861-1865). -/
def addOrphan (c : Coll) (v : CVar) (force : Bool) : Outcome :=
  if !force && Dict.has c.vars v.name then (c, some .variableInCollection)
  else ({ c with vars := Dict.set c.vars v.name v }, none)

/-- The loop over the variables of the other collection (variable/base.py:1875-1877). -/
def addVars (force : Bool) : Coll → List CVar → Outcome
  | c, [] => (c, none)
  | c, v :: rest =>
    match addOrphan c v force with
    | (c', some e) => (c', some e)
    | (c', none) => addVars force c' rest

/-- `add_variable(variable, force)` for a variable with a parent: all of the parent comes with it (variable/base.py:1866-1877). -/
def addVariable (c parent : Coll) (force : Bool) : Outcome :=
  match addDims force c parent.dims with
  | (c', some e) => (c', some e)
  | (c', none) => addVars force c' (parent.vars.map (·.2))

/-- Some variable has the dimension. -/
def used (c : Coll) (d : String) : Bool := c.vars.any fun kv => kv.2.dims.contains d

/-- `remove_orphaned_dimensions(dimensions)` (variable/base.py:2172-2192) for names of stored dimensions. -/
def removeOrphaned (c : Coll) (ds : List String) : Coll :=
  { c with dims := List.filter (fun kv => !(ds.contains kv.1 && !used c kv.1)) c.dims }

/-- Take a name out of the tags and the variables (variable/base.py:2214-2219). -/
def dropName (c : Coll) (n : String) : Coll :=
  { c with tags := List.map (fun t => (t.1, t.2.erase n)) c.tags, vars := Dict.erase c.vars n }

/-- The bounds to remove with a variable, looked up in the collection. -/
def boundsOf (c : Coll) (v : CVar) (removeBounds : Bool) : Res (Option CVar) :=
  match (if removeBounds then v.bounds else none) with
  | none => .ok none
  | some b => match Dict.get? c.vars b with
    | none => .error .keyError
    | some bv => .ok (some bv)

/-- `remove_variable(name, remove_bounds)` (variable/base.py:2194-2224). -/
def removeVariable (c : Coll) (name : String) (removeBounds : Bool) : Outcome :=
  match Dict.get? c.vars name with
  | none => (c, some .keyError)
  | some v =>
    match boundsOf c v removeBounds with
    | .error e => (c, some e)
    | .ok none => (removeOrphaned (dropName c name) v.dims, none)
    | .ok (some b) => (removeOrphaned (dropName (dropName c name) b.name) (v.dims ++ b.dims), none)

/-- The names of the dimensions of a variable with the first `old` replaced (variable/base.py:2238-2242). -/
def renameIn (old new : String) (v : CVar) : CVar :=
  if v.dims.contains old then { v with dims := v.dims.set (v.dims.idxOf old) new } else v

/-- `rename_dimension(old_name, new_name)` (variable/base.py:2226-2242). -/
def renameDimension (c : Coll) (old new : String) : Outcome :=
  match Dict.get? c.dims old with
  | none => (c, some .keyError)
  | some n => ({ c with
      dims := Dict.set (Dict.erase c.dims old) new n
      vars := List.map (fun kv => (kv.1, renameIn old new kv.2)) c.vars }, none)

/-- The check of `append_to_tags` (variable/base.py:1893-1897). -/
def appendNames : List String → List String → Option (List String)
  | names, [] => some names
  | names, t :: ts => if names.contains t then none else appendNames (names ++ [t]) ts

/-- `append_to_tags(tag, names, create)` (variable/base.py:1879-1899, 1970-1998). -/
def appendToTags (c : Coll) (tag : String) (names : List String) (create : Bool) : Outcome :=
  match Dict.get? c.tags tag with
  | none =>
    if create then
      match appendNames [] names with
      | none => ({ c with tags := Dict.set c.tags tag [] }, some .valueError)
      | some ns => ({ c with tags := Dict.set c.tags tag ns }, none)
    else (c, some .keyError)
  | some old =>
    match appendNames old names with
    | none => (c, some .valueError)
    | some ns => ({ c with tags := Dict.set c.tags tag ns }, none)

/-- `collection[old].set_name(new)` (variable/base.py:156-165). -/
def setName (c : Coll) (old new : String) : Outcome :=
  match Dict.get? c.vars old with
  | none => (c, some .keyError)
  | some v => ({ c with vars := Dict.set (Dict.erase c.vars old) new { v with name := new } }, none)

/-- The operations of a user of a collection. -/
inductive Op
  | addDimension (name : String) (size : Nat) (force : Bool)
  | addVariable (parent : Coll) (force : Bool)
  | removeVariable (name : String) (removeBounds : Bool)
  | renameDimension (old new : String)
  | appendToTags (tag : String) (names : List String) (create : Bool)
  | setName (old new : String)

/-- Carry out an operation. -/
def step (c : Coll) : Op → Outcome
  | .addDimension n s f => addDim c n s f
  | .addVariable p f => addVariable c p f
  | .removeVariable n b => removeVariable c n b
  | .renameDimension o n => renameDimension c o n
  | .appendToTags t ns cr => appendToTags c t ns cr
  | .setName o n => setName c o n

/-- A history: exceptions are caught by the caller, who goes on. -/
def run : Coll → List Op → Coll
  | c, [] => c
  | c, o :: os => run (step c o).1 os

end Ocgis.Collection
