import Verif.Py

/-!
# Fields from geometry records

`Field.from_records` (src/ocgis/collection/field.py:388-536) and the geometry dictionaries of the `geom` argument
(src/ocgis/ops/parms/definition.py:678-690).
-/

namespace Ocgis.Records
open Ocgis

/-- A property value.  List-valued properties, which are skipped with a warning, are left out. -/
inductive Val where
  | int (i : Int)
  | float (q : Rat)
  | str (s : String)
  | null
  deriving DecidableEq, Repr

/-- Column types: a string type carries the width after the colon in `str:10`. -/
inductive Ty where
  | int | float | str (width : Nat)
  deriving DecidableEq, Repr

/-- A record: a geometry and its properties. -/
structure Rec (G : Type) where
  geom : G
  props : List (String × Val)

/-- `get_fiona_type_from_pydata` (src/ocgis/driver/vector.py:331-375). -/
def fionaType : Val → Ty
  | .int _ => .int
  | .float _ => .float
  | .str s => .str s.length
  | .null => .int

/-- An element of a column: the fill value it was allocated with, or a value. -/
inductive Cell where
  | fill
  | value (v : Val)
  deriving DecidableEq, Repr

/-- Rounding towards zero. -/
def truncate (q : Rat) : Int := if 0 ≤ q then q.floor else q.ceil

/-- Assigning a value to an element of a NumPy array of the type (field.py:526).  A string assigned to a number is taken to be
an error: strings spelling numbers are left out. -/
def coerce (t : Ty) (v : Val) : Res Val :=
  match t, v with
  | .str _, v => .ok v
  | .int, .int i => .ok (.int i)
  | .int, .float q => .ok (.int (truncate q))
  | .float, .int i => .ok (.float (i : Rat))
  | .float, .float q => .ok (.float q)
  | _, _ => .error .valueError

/-- A column: its elements and whether each is masked (`none` for no mask). -/
structure Column where
  type : Ty
  cells : List Cell
  mask : Option (List Bool) := none
  deriving DecidableEq, Repr

/-- Setting one property of record `idx` (field.py:521-529).  For `None` the mask is created and its element is assigned
`None`, which NumPy converts to `False`. -/
def setCell (idx : Nat) (v : Val) (c : Column) : Res Column :=
  match v with
  | .null => .ok { c with mask := some ((c.mask.getD (List.replicate c.cells.length false)).set idx false) }
  | v =>
    match coerce c.type v with
    | .ok w => .ok { c with cells := c.cells.set idx (.value w) }
    | .error e => .error e

/-- The columns by name. -/
abbrev Columns := List (String × Column)

/-- Replace the column of a name. -/
def Columns.update (cols : Columns) (k : String) (c : Column) : Columns :=
  cols.map fun p => if p.1 = k then (k, c) else p

/-- All properties of one record (field.py:521-529): `field[k]` raises for a name without a column. -/
def setProps (uid : String) (idx : Nat) : List (String × Val) → Columns → Res Columns
  | [], cols => .ok cols
  | (k, v) :: ps, cols =>
    if k = uid then setProps uid idx ps cols
    else
      match cols.lookup k with
      | none => .error .keyError
      | some c =>
        match setCell idx v c with
        | .ok c => setProps uid idx ps (cols.update k c)
        | .error e => .error e

/-- All records from number `idx` on (field.py:499-529). -/
def setRecords {G : Type} (uid : String) : Nat → List (Rec G) → Columns → Res Columns
  | _, [], cols => .ok cols
  | idx, r :: rs, cols =>
    match setProps uid idx r.props cols with
    | .ok cols => setRecords uid (idx + 1) rs cols
    | .error e => .error e

/-- The schema of the first record (field.py:500-508). -/
def firstSchema {G : Type} (r : Rec G) : List (String × Ty) := r.props.map fun p => (p.1, fionaType p.2)

/-- The columns before any value is set (field.py:509-518). -/
def newColumns (uid : String) (n : Nat) (schema : List (String × Ty)) : Columns :=
  (schema.filter fun p => decide (p.1 ≠ uid)).map fun p => (p.1, { type := p.2, cells := List.replicate n .fill })

/-- `int(value)` (field.py:462). -/
def toInt : Val → Res Int
  | .int i => .ok i
  | .float q => .ok (truncate q)
  | .str _ => .error .valueError
  | .null => .error .typeError

/-- The identifier of one record (field.py:460-465). -/
def recUid {G : Type} (uid : String) (hasUid : Bool) (ctr : Nat) (r : Rec G) : Res Int :=
  if hasUid then
    match r.props.lookup uid with
    | none => .error .keyError
    | some v => toInt v
  else .ok ctr

/-- The identifiers of all records; `ctr` counts from one. -/
def recUids {G : Type} (uid : String) (hasUid : Bool) : Nat → List (Rec G) → Res (List Int)
  | _, [] => .ok []
  | ctr, r :: rs =>
    match recUid uid hasUid ctr r with
    | .error e => .error e
    | .ok i =>
      match recUids uid hasUid (ctr + 1) rs with
      | .ok is => .ok (i :: is)
      | .error e => .error e

/-- The field: geometries, their identifiers and the property columns. -/
structure Fld (G : Type) where
  geoms : List G
  uids : List Int
  columns : Columns

/-- `Field.from_records` without `union`.  Without records the loop counter is unbound (field.py:475). -/
def fromRecords {G : Type} (schema : Option (List (String × Ty))) (uid : String) (records : List (Rec G)) :
    Res (Fld G) :=
  match records with
  | [] => .error .unboundLocal
  | r :: rs =>
    match recUids uid ((r.props.lookup uid).isSome) 1 (r :: rs) with
    | .error e => .error e
    | .ok uids =>
      match setRecords uid 0 (r :: rs)
          (newColumns uid (r :: rs).length (match schema with
            | some s => s
            | none => firstSchema r)) with
      | .error e => .error e
      | .ok cols => .ok { geoms := (r :: rs).map Rec.geom, uids := uids, columns := cols }

/-- `Field.from_records` with `union` (field.py:422-424, 441-445, 468-474): the geometries are unioned in order, the
identifier is one, the properties are dropped.  Without records the geometry would be `None`; that is taken to be an error. -/
def fromRecordsUnion {G : Type} (union : G → G → G) : List (Rec G) → Res (Fld G)
  | [] => .error .typeError
  | r :: rs => .ok { geoms := [rs.foldl (fun g r => union g r.geom) r.geom], uids := [1], columns := [] }

/-- Reading an element of a column: masked, or what is stored. -/
def Column.get (c : Column) (i : Nat) : Option Cell :=
  if (c.mask.bind fun m => m[i]?) = some true then none else c.cells[i]?

/-- Writing a string of a column to netCDF character by character (src/ocgis/driver/nc.py:105-109, 155-163): the second
dimension has the width of the column's type (`set_string_max_length_global`, field.py:516-517). -/
def ncString (width : Nat) (s : String) : Res String :=
  if s.length ≤ width then .ok s else .error .indexError

/-! ### Geometry dictionaries -/

/-- A dictionary in the `geom` argument: geometry, properties and coordinate system, the last two optional. -/
structure GeomDict (G : Type) where
  geom : G
  props : Option (List (String × Val)) := none
  crs : Option Nat := none

/-- The record made of dictionary number `ii` (definition.py:681-685). -/
def GeomDict.toRec {G : Type} (ii : Nat) (d : GeomDict G) : Rec G :=
  ⟨d.geom, d.props.getD [("UGID", .int ii)]⟩

/-- The coordinate system passed on: the loop variable keeps that of the last dictionary (definition.py:686-689); `none` means
the default. -/
def dictsCrs {G : Type} : List (GeomDict G) → Option Nat → Option Nat
  | [], crs => crs
  | d :: ds, _ => dictsCrs ds d.crs

/-- The records of all dictionaries; `ii` counts from one. -/
def dictRecs {G : Type} : Nat → List (GeomDict G) → List (Rec G)
  | _, [] => []
  | ii, d :: ds => d.toRec ii :: dictRecs (ii + 1) ds

/-- `Geom.parse` for a list of dictionaries (definition.py:679-690), without `agg_selection`: the selection geometries with
their identifiers and coordinate systems.  `geomUid` is the `geom_uid` argument. -/
def parseDicts {G : Type} (geomUid : Option String) (ds : List (GeomDict G)) : Res (List (G × Int × Option Nat)) :=
  match fromRecords none (geomUid.getD "UGID") (dictRecs 1 ds) with
  | .error e => .error e
  | .ok f => .ok ((f.geoms.zip f.uids).map fun p => (p.1, p.2, dictsCrs ds none))

end Ocgis.Records
