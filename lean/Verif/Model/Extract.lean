import Verif.Model.Collection
/-!
# Taking variables and grids out of their collection
-/
namespace Ocgis.Extract
open Ocgis.Collection

/-- The source collection afterwards, and the collection of what was extracted or the exception. A copy of a collection shares the
values of its variables but not the dictionaries of variables, dimensions and tags (variable/base.py:1908-1922), so the collection
copied is not affected by what is done to the copy. Groups in the collection and values of variables are not modelled. -/
abbrev Extracted := Coll × Res Coll

/-- `var.dimensions`: every name is looked up among the dimensions of the collection (variable/base.py:448-456). -/
def dimsFound (c : Coll) (v : CVar) : Bool := v.dims.all (Dict.has c.dims)

/-- `get_dimension_names(var.dimensions)` of the variable and, if they are to be looked at and there, its bounds
(variable/base.py:1139-1142 and 2205-2210; base.py:126-136). -/
def dimNames (c : Coll) (v : CVar) (withBounds : Bool) : Res (List String) :=
  if !dimsFound c v then .error .keyError
  else match boundsOf c v withBounds with
    | .error e => .error e
    | .ok none => .ok v.dims
    | .ok (some b) => if !dimsFound c b then .error .keyError else .ok (v.dims ++ b.dims)

/-- The names to keep (variable/base.py:1119-1121). -/
def keepNames (c : Coll) (name : String) (v : CVar) (keepBounds : Bool) : Res (List String) :=
  match boundsOf c v keepBounds with
  | .error e => .error e
  | .ok none => .ok [name]
  | .ok (some b) => .ok [name, b.name]

/-- `for tk in names: collection.remove_variable(tk, remove_bounds)` (variable/base.py:1127-1128; spatial/grid.py:456-458 and
464-465): the first failure ends it. -/
def removeEach (removeBounds : Bool) : Coll → List String → Outcome
  | c, [] => (c, none)
  | c, n :: ns =>
    match removeVariable c n removeBounds with
    | (c', some e) => (c', some e)
    | (c', none) => removeEach removeBounds c' ns

/-- The variables whose names are to be kept (variable/base.py:1126, 1129-1134). The tags are left alone. -/
def onlyVars (c : Coll) (names : List String) : Coll := { c with vars := c.vars.filter fun kv => names.contains kv.1 }

/-- The last part (variable/base.py:1136-1148): `copy` is the copy of the collection with the variables to keep, `remaining` the
dimensions of the source. -/
def dropDims (copy : Coll) (name : String) (keepBounds : Bool) (remaining : Dict Nat) : Res Coll :=
  match Dict.get? copy.vars name with
  | none => .error .keyError
  | some v =>
    match dimNames copy v keepBounds with
    | .error e => .error e
    | .ok keep =>
      let pop := (remaining.map (·.1)).filter fun d => !keep.contains d
      if pop.all (Dict.has copy.dims) then .ok { copy with dims := copy.dims.filter fun kv => !pop.contains kv.1 }
      else .error .keyError

/-- `collection[name].extract(keep_bounds, clean_break)` (variable/base.py:1108-1148) for a variable in an initialized collection. -/
def extract (c : Coll) (name : String) (keepBounds cleanBreak : Bool) : Extracted :=
  match Dict.get? c.vars name with
  | none => (c, .error .keyError)
  | some v =>
    match keepNames c name v keepBounds with
    | .error e => (c, .error e)
    | .ok keep =>
      if cleanBreak then
        match removeEach true c keep with
        | (c', some e) => (c', .error e)
        | (c', none) => (c', dropDims (onlyVars c keep) name keepBounds c'.dims)
      else (c, dropDims (onlyVars c keep) name keepBounds c.dims)

/-- The coordinate system of a spatial variable, found by the name its field's dimension map gives (spatial/base.py:41-43;
driver/dimension_map.py:164-174 and 605-614). -/
def crsOf (c : Coll) : Option String → Res (Option CVar)
  | none => .ok none
  | some n => match Dict.get? c.vars n with
    | none => .error .variableNotInCollection
    | some v => .ok (some v)

/-- `extract` of a spatial variable: a copy of the coordinate system goes with it (spatial/base.py:675-682). -/
def spatialExtract (c : Coll) (crs : Option String) (name : String) (keepBounds cleanBreak : Bool) : Extracted :=
  match crsOf c crs with
  | .error e => (c, .error e)
  | .ok none => extract c name keepBounds cleanBreak
  | .ok (some s) =>
    match extract c name keepBounds cleanBreak with
    | (c', .error e) => (c', .error e)
    | (c', .ok r) =>
      match addOrphan r s false with
      | (_, some e) => (c', .error e)
      | (r', none) => (c', .ok r')

/-- The variables a grid consists of: those its dimension map gives for x, y, z and the mask, each with its bounds
(spatial/base.py:549-565). -/
def memberNames (c : Coll) : List String → Res (List String)
  | [] => .ok []
  | n :: ns =>
    match Dict.get? c.vars n with
    | none => .error .variableNotInCollection
    | some v =>
      match boundsOf c v true, memberNames c ns with
      | .error e, _ => .error e
      | _, .error e => .error e
      | .ok none, .ok rest => .ok (n :: rest)
      | .ok (some b), .ok rest => .ok (n :: b.name :: rest)

/-- `grid.extract(clean_break)` (spatial/grid.py:446-468): the old collection of the grid and the new one. `coords` are the names of
the variables for x, y, z and the mask that the dimension map has. -/
def gridExtract (c : Coll) (coords : List String) (cleanBreak : Bool) : Extracted :=
  match memberNames c coords with
  | .error e => (c, .error e)
  | .ok members =>
    match removeEach false c ((c.vars.map (·.2.name)).filter fun n => !members.contains n) with
    | (_, some e) => (c, .error e)
    | (new, none) =>
      if cleanBreak then
        match removeEach false c ((c.vars.map (·.2.name)).filter fun n => members.contains n) with
        | (c', some e) => (c', .error e)
        | (c', none) => (c', .ok new)
      else (c, .ok new)

end Ocgis.Extract
