import Verif.Py

/-!
# The geometry argument and the arguments it depends on

`Geom` (src/ocgis/ops/parms/definition.py:607-801), its construction in `OcgOperations.__init__` (src/ocgis/ops/core.py:145-153)
and `_update_dependents_` (core.py:318-322).
-/

namespace Ocgis.GeomArg
open Ocgis

/-- Geometries, by how they came about. -/
inductive Shape where
  | point (x y : Rat)
  | box (minx miny maxx maxy : Rat)
  | custom (n : Nat)
  | union (parts : List Shape)

/-- The arguments that select from a geometry file: `geom_select_uid`, `geom_select_sql_where`, `geom_uid`, `agg_selection`. -/
structure Kw where
  selectUid : Option (List Int) := none
  sqlWhere : Option String := none
  uid : Option String := none
  union : Bool := false
  deriving DecidableEq

/-- `GeomCabinetIterator` (src/ocgis/spatial/geom_cabinet.py:328-341): a file by key or by path, and the selection. -/
structure It where
  key : Option String := none
  path : Option String := none
  kw : Kw := {}
  deriving DecidableEq

/-- What may be assigned.  Text is taken apart as `parse_string` does: text that is numbers separated by bars, or any other
text.  Dictionaries and a Shapely geometry are records, unioned if asked for; fields and geometry variables are not. -/
inductive Input where
  | none
  | numberText (text : String) (xs : List Rat)
  | nameText (text : String)
  | numbers (xs : List Rat)
  | records (gs : List Shape)
  | fields (gs : List Shape)
  | iterator (it : It)

/-- The value kept: nothing, a file, or geometries. -/
inductive Value where
  | none
  | file (it : It)
  | shapes (gs : List Shape)

/-- The parameter: the value, the selection arguments it was constructed with, and what the metadata is made of. -/
structure Parm where
  kw : Kw
  value : Value := .none
  shpKey : Option String := none
  bounds : Option (List Rat) := none

/-- The disk: which paths exist, which are directories. -/
structure Disk where
  there : String → Bool
  dir : String → Bool

/-- The geometry of two or four numbers (definition.py:692-699, 737-746).  A box without width or height is not valid. -/
def ofNumbers : List Rat → Option (Res Shape)
  | [x, y] => some (.ok (.point x y))
  | [a, b, c, d] => some (if a = c ∨ b = d then .error .definitionValidation else .ok (.box a b c d))
  | _ => none

/-- Bounds of the geometry of numbers, `geom.bounds` (definition.py:701). -/
def boundsOf : Shape → List Rat
  | .point x y => [x, y, x, y]
  | .box a b c d => [min a c, min b d, max a c, max b d]
  | _ => []

/-- Records become one unioned geometry or one geometry each (definition.py:688-690, 705-707; field.py:388-536). -/
def ofRecords (kw : Kw) (gs : List Shape) : List Shape := if kw.union then [.union gs] else gs

/-- A name becomes a file: a path if it exists, a key otherwise (definition.py:751-777). -/
def ofName (disk : Disk) (kw : Kw) (text : String) : It :=
  if disk.there text then { path := some text, kw := kw } else { key := some text, kw := kw }

/-- `value.key or value.path` (definition.py:703). -/
def It.name (it : It) : Option String :=
  match it.key with
  | some k => some k
  | none => it.path

/-- Assigning a value: `_set_value_` with `parse_string` and `parse` (definition.py:676-778).  Numbers separated by bars that are
neither two nor four are taken for a name; a list of numbers that is neither raises `UnboundLocalError`, as does an empty list. -/
def Parm.set (disk : Disk) (p : Parm) (i : Input) : Res Parm :=
  match i with
  | .none => .ok { p with value := .none }
  | .numberText text xs =>
    if disk.dir text then .error .definitionValidation
    else
      match ofNumbers xs with
      | some (.ok g) => .ok { p with value := .shapes (ofRecords p.kw [g]), bounds := some xs }
      | some (.error e) => .error e
      | none => .ok { p with value := .file (ofName disk p.kw text), shpKey := some text }
  | .nameText text =>
    if disk.dir text then .error .definitionValidation
    else .ok { p with value := .file (ofName disk p.kw text), shpKey := some text }
  | .numbers xs =>
    match ofNumbers xs with
    | some (.ok g) => .ok { p with value := .shapes (ofRecords p.kw [g]), bounds := some (boundsOf g) }
    | some (.error e) => .error e
    | none => .error .unboundLocal
  | .records gs => if gs = [] then .error .unboundLocal else .ok { p with value := .shapes (ofRecords p.kw gs) }
  | .fields gs => .ok { p with value := .shapes gs }
  | .iterator it => .ok { p with value := .file it, shpKey := it.name }

/-- Reading the value (definition.py:670-673): a file's selected identifiers are replaced by those of the argument. -/
def Parm.read (p : Parm) : Value :=
  match p.value with
  | .file it => .file { it with kw := { it.kw with selectUid := p.kw.selectUid } }
  | v => v

/-- What the metadata says about the geometry (definition.py:780-789). -/
inductive About where
  | nothing
  | named (s : String)
  | bounds (xs : List Rat)
  | count (n : Nat)
  deriving DecidableEq

/-- `_get_meta_` (definition.py:780-789); `count` for a file is its `len`, left out here. -/
def Parm.about (p : Parm) : About :=
  match p.value with
  | .none => .nothing
  | v =>
    match p.shpKey with
    | some s => .named s
    | none =>
      match p.bounds with
      | some b => .bounds b
      | none =>
        match v with
        | .shapes gs => .count gs.length
        | _ => .count 0

/-- The part of the operations object that matters here. -/
structure Ops where
  kw : Kw
  geom : Parm

/-- `OcgOperations(geom=…, geom_select_uid=…, …)` (core.py:145-153, 184): the geometry argument is constructed with the selection
arguments' values. -/
def construct (disk : Disk) (kw : Kw) (i : Input) : Res Ops :=
  match Parm.set disk { kw := kw } i with
  | .ok p => .ok ⟨kw, p⟩
  | .error e => .error e

/-- Assignments to an attribute of the operations. -/
inductive Assign where
  | selectUid (v : Option (List Int))
  | sqlWhere (v : Option String)
  | uid (v : Option String)
  | union (v : Bool)
  | geom (i : Input)

/-- `__setattr__` (core.py:203-216) with `_update_dependents_` (core.py:318-322): only the selected identifiers are passed on to
the geometry.  The validation that follows is left out. -/
def assign (disk : Disk) (o : Ops) (a : Assign) : Res Ops :=
  let set : Res Ops :=
    match a with
    | .selectUid v => .ok { o with kw := { o.kw with selectUid := v } }
    | .sqlWhere v => .ok { o with kw := { o.kw with sqlWhere := v } }
    | .uid v => .ok { o with kw := { o.kw with uid := v } }
    | .union v => .ok { o with kw := { o.kw with union := v } }
    | .geom i =>
      match o.geom.set disk i with
      | .ok p => .ok { o with geom := p }
      | .error e => .error e
  match set with
  | .ok o => .ok { o with geom := { o.geom with kw := { o.geom.kw with selectUid := o.kw.selectUid } } }
  | .error e => .error e

/-- A history of assignments; one that raises leaves the operations as they are. -/
def assignAll (disk : Disk) (o : Ops) : List Assign → Ops
  | [] => o
  | a :: as =>
    match assign disk o a with
    | .ok o => assignAll disk o as
    | .error _ => assignAll disk o as

/-- Two operations constructed from one `Geom` object: its attributes are shared (`self.__dict__ = init_value.__dict__`,
src/ocgis/ops/parms/base.py:26-28). -/
structure Pair where
  first : Kw
  second : Kw
  geom : Parm

/-- `OcgOperations(geom=g, …)` twice with the same `Geom` object `g`; the second construction passes on its identifiers
last. -/
def constructPair (g : Parm) (first second : Kw) : Pair :=
  let g1 := { g with kw := { g.kw with selectUid := first.selectUid } }
  ⟨first, second, { g1 with kw := { g1.kw with selectUid := second.selectUid } }⟩

end Ocgis.GeomArg
