import Verif.Model.DimMap
/-!
# The coordinates of a field (`collection/field.py`)

A field with its variables by name, its dimension map and its data variables.  The values of arrays are not represented:
`data` is the identity of the array a variable holds, `obj` that of the Python object.  Climatologies
(`TemporalGroupVariable`) and topologies are left out.  A call that raises ends a history; what it has changed by then is
not represented.
-/
namespace Ocgis.FieldCoords
open Ocgis.DimMap (Attrs noAttrs updateAttrs defaultAttrs)

/-- The keys of coordinates with a setter of their own (constants.py:224-275). -/
inductive Key where
  | realization | time | level | y | x
  deriving DecidableEq

/-- The name of a key. -/
def Key.str : Key → String
  | .realization => "realization"
  | .time => "time"
  | .level => "level"
  | .y => "y"
  | .x => "x"

/-- A variable; `bounds` is the name of its bounds (variable/base.py:255-372). -/
structure Var where
  obj : Nat
  data : Nat
  dims : List String
  bounds : Option String
  attrs : Attrs

/-- What the dimension map holds for a key (driver/dimension_map.py:554-557). -/
structure Entry where
  var : Option String
  bounds : Option String
  dimension : List String
  attrs : Attrs

/-- An entry that was never set. -/
def Entry.none : Entry := ⟨Option.none, Option.none, [], noAttrs⟩

/-- A field; `fresh` is the identity of the next object that is made, `tags` the names tagged as data. -/
structure Field where
  vars : String → Option Var
  map : Key → Entry
  crs : Option String
  tags : List String
  fresh : Nat

/-- A field without variables. -/
def Field.empty (fresh : Nat) : Field := ⟨fun _ => none, fun _ => .none, none, [], fresh⟩

/-- `field[name] = v`. -/
def Field.put (f : Field) (n : String) (v : Var) : Field := { f with vars := fun m => if m = n then some v else f.vars m }

/-- `field.pop(name)`. -/
def Field.pop (f : Field) (n : String) : Res Field :=
  match f.vars n with
  | none => .error .keyError
  | some _ => .ok { f with vars := fun m => if m = n then none else f.vars m }

/-- Write the entry of a key. -/
def Field.enter (f : Field) (k : Key) (e : Entry) : Field := { f with map := fun j => if j = k then e else f.map j }

/-- Set an attribute. -/
def setAttr (a : Attrs) (n : String) (v : Option String) : Attrs := fun m => if m = n then v else a m

/-- `inquire_is_xyz` without topologies (driver/dimension_map.py:345-350): of several keys the last one of the dictionary. -/
def Field.inquire (f : Field) (n : String) : Option Key :=
  if (f.map .level).var = some n then some .level
  else if (f.map .y).var = some n then some .y
  else if (f.map .x).var = some n then some .x
  else none

/-- The end of `set_bounds` (variable/base.py:1463-1469): the dimension map is told, for the variables of the keys `x`, `y`
and `level` only. -/
def Field.noteBounds (f : Field) (n : String) (b : Option String) : Field :=
  match f.inquire n with
  | none => f
  | some k => f.enter k { f.map k with bounds := b }

/-- Bounds get the units of their variable if it has some (variable/base.py:1454-1456, `CLOBBER_UNITS_ON_BOUNDS`). -/
def clobberUnits (v bv : Var) : Var :=
  match v.attrs "units" with
  | none => bv
  | some u => { bv with attrs := setAttr bv.attrs "units" (some u) }

/-- `variable.set_bounds(bounds, force=True)` for a variable `n` of the field, with bounds that are already in the field or
`None` (variable/base.py:1429-1469); masks are left out. -/
def Field.setBounds (f : Field) (n : String) (v : Var) (b : Option (String × Var)) : Res Field :=
  match b with
  | none => do
    let f ← match v.bounds with
      | none => .ok (f.put n v)
      | some old => do
        let f ← f.pop old
        .ok (f.put n { v with attrs := setAttr v.attrs "bounds" none, bounds := none })
    .ok (f.noteBounds n none)
  | some (b, bv) =>
    let v := { v with bounds := some b, attrs := setAttr v.attrs "bounds" (some b) }
    .ok (((f.put n v).put b (clobberUnits v bv)).noteBounds n (some b))

/-- `get_field_property` (field.py:1076-1093): the variable gets the attributes the map holds and the bounds it names. -/
def Field.get (f : Field) (k : Key) : Res (Option String × Field) :=
  let e := f.map k
  match e.var with
  | none => .ok (none, f)
  | some n => match f.vars n with
    | none => .ok (none, f)
    | some v => do
      let v := { v with attrs := updateAttrs v.attrs e.attrs }
      let f ← match e.bounds with
        | none => .ok (f.put n v)
        | some b => f.setBounds n v ((f.vars b).map fun bv => (b, bv))
      .ok (some n, f)

/-- The attributes of a new time variable (variable/temporal.py:46-53). -/
def timeAttrs (a : Attrs) : Attrs :=
  let a := setAttr a "calendar" (some ((a "calendar").getD "standard"))
  setAttr a "units" (some ((a "units").getD "days since 0001-01-01 00:00:00"))

/-- `TemporalVariable.from_variable` for a variable `n` of the field (variable/temporal.py:173-194): new objects for the
variable and its bounds take the place of the old ones in the field. -/
def Field.fromVariable (f : Field) (n : String) (v : Var) : Res Field :=
  let w := { v with obj := f.fresh + 1, attrs := timeAttrs v.attrs }
  match v.bounds with
  | none => .ok { f.put n w with fresh := f.fresh + 2 }
  | some b => match f.vars b with
    | none => .error .keyError
    | some bv => do
      let c := w.attrs "calendar"
      let f' ← f.setBounds n w (some (b, { bv with obj := f.fresh, attrs := setAttr (timeAttrs bv.attrs) "calendar" c }))
      .ok { f' with fresh := f.fresh + 2 }

/-- `Field.time` (field.py:262-271): at every access the variable is converted. -/
def Field.time (f : Field) : Res (Option String × Field) := do
  let (r, f) ← f.get .time
  match r with
  | none => .ok (none, f)
  | some n => match f.vars n with
    | none => .error .keyError
    | some v => do
      let f ← f.fromVariable n v
      .ok (some n, f)

/-- The properties `realization`, `time`, `level`, `y` and `x` (field.py:248-320). -/
def Field.read (f : Field) : Key → Res (Option String × Field)
  | .time => f.time
  | k => f.get k

/-- A variable from elsewhere: its name and the variables of the collection it belongs to, itself included. -/
structure Incoming where
  name : String
  vars : List (String × Var)

/-- The variable itself. -/
def Incoming.main (i : Incoming) : Option Var := i.vars.lookup i.name

/-- The variable handed to a setter: one of the field's own, or one from elsewhere. -/
inductive Arg where
  | own (name : String)
  | other (i : Incoming)

/-- The object handed over. -/
def Arg.var (f : Field) : Arg → Option (String × Var)
  | .own n => (f.vars n).map fun v => (n, v)
  | .other i => i.main.map fun v => (i.name, v)

/-- `add_variable(variable, force=True)` (variable/base.py:1850-1877): all variables of the collection it belongs to are
added and replace those of the same name.  Dimensions are left out. -/
def Field.add (f : Field) : Arg → Field
  | .own _ => f
  | .other i => i.vars.foldl (fun f p => f.put p.1 p.2) f

/-- A name is no longer tagged and its variable is taken out (variable/base.py:2215-2219). -/
def Field.drop (f : Field) (n : String) : Res Field := ({ f with tags := f.tags.filter (· ≠ n) } : Field).pop n

/-- `remove_variable(name)` (variable/base.py:2194-2224): with its bounds.  Dimensions are left out. -/
def Field.remove (f : Field) (n : String) : Res Field :=
  match f.vars n with
  | none => .error .keyError
  | some v => match v.bounds with
    | none => f.drop n
    | some b => if (f.vars b).isSome then (f.drop n).bind fun f => f.drop b else .error .keyError

/-- The dimension `set_variable` records (driver/dimension_map.py:512-524, 532-535). -/
def recorded (v : Var) : Option (List String) → Res (List String)
  | some d => .ok d
  | none => match v.dims with
    | [] => .ok []
    | [d] => .ok [d]
    | _ => .error .dimensionMapError

/-- `DimensionMap.set_variable` with a variable object (driver/dimension_map.py:503-557): what the map already holds wins
over the attributes of the variable, these win over the default. -/
def Field.setVariable (f : Field) (k : Key) (n : String) (v : Var) (dimension : Option (List String)) : Res Field := do
  if v.bounds.any fun b => (f.vars b).isNone then .error .keyError
  let d ← recorded v dimension
  .ok (f.enter k ⟨some n, v.bounds, d, updateAttrs (updateAttrs (defaultAttrs k.str) v.attrs) (f.map k).attrs⟩)

/-- The current variable of the key is removed unless it is the object `o` (field.py:1124-1129). -/
def Field.clear (f : Field) (k : Key) (o : Option Nat) : Res Field :=
  match (f.map k).var with
  | none => .ok f
  | some curr => match f.vars curr with
    | none => .ok f
    | some old => if o = some old.obj then .ok f else f.remove curr

/-- `set_field_property` with `force` and `should_add` (field.py:1121-1136). -/
def Field.set (f : Field) (k : Key) (a : Option Arg) (dimension : Option (List String)) : Res Field := do
  let g ← f.clear k ((a.bind (Arg.var f)).map (·.2.obj))
  match a with
  | none => .ok (g.enter k .none)
  | some a => match a.var f with
    | none => .error .keyError
    | some (n, v) => (g.add a).setVariable k n v dimension

/-- `add_variable(variable, force=True, is_data=True)` (field.py:362-375, variable/base.py:1879-1899). -/
def Field.addData (f : Field) (i : Incoming) : Field :=
  let f := f.add (.other i)
  if i.name ∈ f.tags.filter (fun n => (f.vars n).isSome) then f else { f with tags := f.tags ++ [i.name] }

/-- `data_variables` (field.py:224-237, variable/base.py:1986-1996): names without a variable are passed over. -/
def Field.dataVariables (f : Field) : List (String × Var) := f.tags.filterMap fun n => (f.vars n).map fun v => (n, v)

/-- `is_data` of the constructor (field.py:117-125): a variable whose name is taken is not added. -/
def Field.initData (f : Field) (vs : List (String × Var)) : Res Field := do
  let f ← vs.foldlM (fun f p => if p.1 ∈ f.tags then .error .valueError else .ok ({ f with tags := f.tags ++ [p.1] } : Field)) f
  .ok (vs.foldl (fun f p => if (f.vars p.1).isSome then f else f.put p.1 p.2) f)

/-- `variable.set_name(new)` for a variable of the field (variable/base.py:156-165): the collection is told, the
dimension map and the tags are not. -/
def Field.rename (f : Field) (n m : String) : Res Field :=
  match f.vars n with
  | none => .error .keyError
  | some v => do
    let f ← f.pop n
    .ok (f.put m v)

/-- `Field.crs` (field.py:216-222, driver/dimension_map.py:164-174 with `nullable`): a name that is not in the field is an
error. -/
def Field.getCrs (f : Field) : Res (Option (String × Var)) :=
  match f.crs with
  | none => .ok none
  | some n => match f.vars n with
    | none => .error .variableNotInCollection
    | some v => .ok (some (n, v))

/-- `set_crs(value, force, should_add)` (field.py:797-815); a coordinate system counts as a variable without parent
(variable/crs.py:88-89).  `format_spatial_object` is left out (C82). -/
def Field.setCrs (f : Field) (c : Option (String × Var)) (force shouldAdd : Bool) : Res Field := do
  let curr ← f.getCrs
  let f ← match curr with
    | none => .ok f
    | some (n, _) => f.pop n
  let f ← match c with
    | none => .ok f
    | some (n, v) =>
      if shouldAdd then (if !force && (f.vars n).isSome then .error .variableInCollection else .ok (f.put n v)) else .ok f
  .ok { f with crs := c.map (·.1) }

/-- Calls on a field. -/
inductive Op where
  | set (k : Key) (a : Option Incoming) (dimension : Option (List String))
  | read (k : Key)
  | addData (n : String) (v : Var)

/-- A call. -/
def Field.step (f : Field) : Op → Res Field
  | .set k a d => f.set k (a.map .other) d
  | .read k => (f.read k).map (·.2)
  | .addData n v => .ok (f.addData ⟨n, [(n, v)]⟩)

/-- A history of calls. -/
def Field.run (f : Field) : List Op → Res Field
  | [] => .ok f
  | o :: os => do
    let f ← f.step o
    f.run os

end Ocgis.FieldCoords
