import Verif.Py
/-!
# Tables with a shapefile of their geometries

Models `CsvShapefileConverter._write_coll_` (conv/csv_.py:62-129) with the table it writes first (conv/csv_.py:21-51), the identifiers of
geometries (collection/field.py:785-793, variable/base.py:1066-1106 on one process) and the write modes of collections (conv/base.py:161-206).
Geometries are numbers.  Values of variables, masks and the columns of time are not modelled.  Appending to a file that does not exist is taken to
create it.
-/
namespace Ocgis.CsvShp

/-- A field of a collection: its identifier, the identifier of the selection geometry if there is one, its geometries, their identifiers (name and
values) if they have some already, and which geometry each record of the table belongs to. -/
structure Fld where
  uid : Option Nat
  ugid : Option Int
  geoms : List Nat
  ids : Option (String × List Int)
  records : List Nat
  deriving DecidableEq, Repr

/-- `set_abstraction_geom(create_ugid=True)` (collection/field.py:785-793): new identifiers if there are none. -/
def idsOf (f : Fld) : String × List Int := f.ids.getD ("GID", (List.range f.geoms.length).map fun (i : Nat) => 1 + (i : Int))

/-- A record of the table: identifiers of the dataset, of the selection geometry and of the geometry. -/
structure Key where
  did : Option Nat
  ugid : Option Int
  gid : Option Int
  deriving DecidableEq, Repr

/-- The records a field has in the table (conv/csv_.py:27-49). -/
def tableOf (f : Fld) : List Key := f.records.map fun r => { did := f.uid, ugid := f.ugid, gid := (idsOf f).2[r]? }

/-- The records a field has in the shapefile (conv/csv_.py:91-129). -/
def shapesOf (f : Fld) : List (Key × Nat) :=
  f.geoms.zipIdx.map fun g => ({ did := f.uid, ugid := f.ugid, gid := (idsOf f).2[g.2]? }, g.1)

/-- The files, and the exception that ended writing. -/
structure State where
  table : List Key
  shapes : List (Key × Nat)
  err : Option PyErr
  deriving DecidableEq, Repr

/-- Writing to a file: added to it or in its place. -/
def put {α : Type} (append : Bool) (file new : List α) : List α := if append then file ++ new else new

/-- The table of a collection (conv/csv_.py:27-51). -/
def writeTable (append : Bool) (fields : List Fld) (file : List Key) : List Key := fields.foldl (fun file f => put append file (tableOf f)) file

/-- The shapefile of a collection (conv/csv_.py:91-129); `field['GID']` raises if the identifiers have another name. -/
def writeShapes (append : Bool) : List Fld → State → State
  | [], s => s
  | f :: fs, s =>
    if (idsOf f).1 = "GID" then writeShapes append fs { s with shapes := put append s.shapes (shapesOf f) }
    else { s with err := some .keyError }

/-- One collection (conv/csv_.py:62-129). -/
def writeColl (aggregate append : Bool) (fields : List Fld) (s : State) : State :=
  let s := { s with table := writeTable append fields s.table }
  if aggregate then s else writeShapes append fields s

/-- All collections: the first one makes the files, the others are added (conv/base.py:161-206). -/
def writeFrom (aggregate : Bool) : Bool → List (List Fld) → State → State
  | _, [], s => s
  | append, c :: cs, s =>
    let s := writeColl aggregate append c s
    if s.err.isSome then s else writeFrom aggregate true cs s

/-- Writing everything. -/
def write (aggregate : Bool) (colls : List (List Fld)) : State := writeFrom aggregate false colls { table := [], shapes := [], err := none }

end Ocgis.CsvShp
