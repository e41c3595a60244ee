import Verif.Py

/-!
# Writing records to CSV and vector files

`DriverCSV` (src/ocgis/driver/csv_.py:57-76), `DriverVector` (src/ocgis/driver/vector.py:216-271), their caller
`write_variable_collection` (src/ocgis/driver/base.py:774-800) and the converters' loop over collections
(src/ocgis/conv/base.py:161-206, conv/csv_.py:20-49, conv/fiona_.py:25-62).
-/

namespace Ocgis.Tabular
open Ocgis

/-- A record: column names and values, in order. -/
abbrev Record := List (String × String)

/-- A line of a file. -/
abbrev Row := List String

/-- A file: the header (or schema) and the lines below it. -/
structure File where
  header : Row
  rows : List Row
  deriving DecidableEq, Repr

/-- The formats: GeoJSON files cannot be added to (vector.py:250-254). -/
inductive Format where
  | csv
  | shapefile
  | geojson
  deriving DecidableEq, Repr

/-- `MPIWriteMode` (constants.py:282-288): `WRITE` is `NORMAL` and `APPEND` is `FILL`. -/
inductive Mode where
  | normal
  | template
  | fill
  deriving DecidableEq, Repr

/-- `_get_write_modes_` (driver/base.py:825-830) or the mode given by the caller (787-790). -/
def modes (size : Nat) : Option Mode → List Mode
  | some m => [m]
  | none => if size > 1 then [.template, .fill] else [.normal]

/-! ## One call on all ranks

Every rank runs the same code: rank 0 may create the file; then for each rank in turn, that rank writes and all ranks meet
at a barrier. -/

/-- What is written: the modes of the passes, the header, and the lines of each rank. -/
structure Job where
  format : Format
  modes : List Mode
  header : Row
  lines : Nat → List Row
  size : Nat

/-- The steps of a rank: creating the file (rank 0 only), finding the column names, the turn of rank `p`, a barrier. -/
inductive Act where
  | create
  | prepare
  | turn (p : Nat)
  | barrier
  deriving DecidableEq, Repr

/-- The loop over the ranks (csv_.py:69-76, vector.py:263-271). -/
def turns (size : Nat) : List Act := (List.range size).flatMap fun p => [.turn p, .barrier]

/-- One pass of `_write_variable_collection_main_` (csv_.py:57-76, vector.py:216-271).  With `TEMPLATE` the loop is left out
and there is no barrier. -/
def pass (size : Nat) : Mode → List Act
  | .normal => .prepare :: .create :: turns size
  | .template => [.prepare, .create]
  | .fill => .prepare :: turns size

/-- The passes of one call (driver/base.py:799-800), one after the other. -/
def program (j : Job) : List Act := j.modes.flatMap (pass j.size)

/-- The file and the program counters of the ranks. -/
structure World where
  file : Option File
  pc : Nat → Nat

/-- Creating the file (csv_.py:65-68, vector.py:256-261); opening with mode `w` empties it. -/
def create (j : Job) (f : Option File) : Option File :=
  if j.format ≠ .geojson then some ⟨j.header, []⟩ else f

/-- The lines of rank `r` (csv_.py:71-75, vector.py:266-270): added to the file, or for GeoJSON in a new file.  Adding to a
file that is not there creates it without a header (`open(path, 'a')`). -/
def put (j : Job) (r : Nat) (f : Option File) : Option File :=
  match j.format, f with
  | .geojson, _ => some ⟨j.header, j.lines r⟩
  | _, some f => some { f with rows := f.rows ++ j.lines r }
  | _, none => some ⟨[], j.lines r⟩

/-- What a step of rank `r` does to the file. -/
def act (j : Job) (r : Nat) (f : Option File) : Act → Option File
  | .create => if r = 0 then create j f else f
  | .turn p => if r = p then put j r f else f
  | _ => f

/-- Whether rank `r` may take a step: at a barrier only when all ranks have arrived. -/
def mayGo (j : Job) (w : World) (r : Nat) : Act → Bool
  | .barrier => (List.range j.size).all fun q => w.pc r ≤ w.pc q
  | _ => true

/-- One step of rank `r`, if it can take one. -/
def step (j : Job) (w : World) (r : Nat) : World :=
  if r < j.size then
    match (program j)[w.pc r]? with
    | none => w
    | some a =>
      if mayGo j w r a then ⟨act j r w.file a, fun q => if q = r then w.pc r + 1 else w.pc q⟩ else w
  else w

/-- A run: `schedule` names the rank that moves next. -/
def run (j : Job) (f : Option File) (schedule : List Nat) : World := schedule.foldl (step j) ⟨f, fun _ => 0⟩

/-! ## A whole call, the ranks taking turns (`C70_rank_order` is about any order) -/

/-- The passes one after the other, in each the ranks in order. -/
def writeModes (j : Job) (f : Option File) : Option File :=
  j.modes.foldl (fun f m =>
    let f1 := if m = .fill then f else create j f
    if m = .template then f1 else (List.range j.size).foldl (fun f r => put j r f) f1) f

/-- `csv.DictWriter(f, fieldnames).writerow(record)`: the values in the order of the field names, nothing for missing ones;
names that are not among them raise. -/
def toRow (fieldnames : Row) (rec : Record) : Res Row :=
  if rec.all fun e => fieldnames.contains e.1 then
    .ok (fieldnames.map fun k => ((rec.find? fun e => e.1 = k).map (·.2)).getD "")
  else .error .valueError

/-- `ordered_dict[key] = value`. -/
def setKey : Record → String → String → Record
  | [], k, v => [(k, v)]
  | e :: es, k, v => if e.1 = k then (k, v) :: es else e :: setKey es k v

/-- `format_record_for_fiona` (vector.py:274-282): column names of shapefiles are cut to ten characters. -/
def formatRecord (f : Format) (rec : Record) : Record :=
  if f = .shapefile then
    rec.foldl (fun acc e => setKey acc (if e.1.length > 10 then String.ofList (e.1.toList.take 10) else e.1) e.2) []
  else rec

/-- The field names: those of the first record (csv_.py:63, vector.py:241-244); without records `next` raises
`StopIteration`, taken as a run-time error. -/
def fieldNames : List Record → Res Row
  | [] => .error .runtimeError
  | rec :: _ => .ok (rec.map (·.1))

/-- The names the records of a rank are written under: those of its own first record for CSV (csv_.py:63); vector files have
a schema, which the records must match. -/
def columns (fmt : Format) (mode : Option Mode) (f : Option File) (p : List Record) : Res Row :=
  match fieldNames p with
  | .error e => .error e
  | .ok names =>
    match fmt, mode, f with
    | .shapefile, some .fill, some f =>
      if names.all (f.header.contains ·) ∧ f.header.all (names.contains ·) then .ok f.header else .error .valueError
    | _, _, _ => .ok names

/-- The lines of one rank. -/
def linesOf (fmt : Format) (mode : Option Mode) (f : Option File) (p : List Record) : Res (List Row) :=
  match columns fmt mode f p with
  | .error e => .error e
  | .ok names => p.mapM (toRow names)

/-- `write_variable_collection` (driver/base.py:774-800) of a field whose records on rank `r` are `parts[r]`. The header is
that of rank 0. -/
def writeField (fmt : Format) (mode : Option Mode) (parts : List (List Record)) (f : Option File) : Res (Option File) :=
  let parts := parts.map fun p => p.map (formatRecord fmt)
  match parts.mapM (linesOf fmt mode f), fieldNames ((parts[0]?).getD []) with
  | .ok lines, .ok names =>
    .ok (writeModes ⟨fmt, modes parts.length mode, names, fun r => (lines[r]?).getD [], parts.length⟩ f)
  | .error e, _ => .error e
  | _, .error e => .error e

/-- `_write_coll_` (conv/csv_.py:20-49, conv/fiona_.py:25-62): every field of a collection with the same mode. -/
def writeColl (fmt : Format) (mode : Option Mode) : List (List (List Record)) → Option File → Res (Option File)
  | [], f => .ok f
  | p :: ps, f =>
    match writeField fmt mode p f with
    | .error e => .error e
    | .ok f1 => writeColl fmt mode ps f1

/-- The collections after the first one (conv/base.py:173-196): `APPEND`. -/
def appendColls (fmt : Format) : List (List (List (List Record))) → Option File → Res (Option File)
  | [], f => .ok f
  | c :: cs, f =>
    match writeColl fmt (some .fill) c f with
    | .error e => .error e
    | .ok f1 => appendColls fmt cs f1

/-- `AbstractCollectionConverter.write` (conv/base.py:161-206) on the collections that are not empty: the first one creates
the file. -/
def write (fmt : Format) : List (List (List (List Record))) → Option File → Res (Option File)
  | [], f => .ok f
  | c :: cs, f =>
    match writeColl fmt none c f with
    | .error e => .error e
    | .ok f1 => appendColls fmt cs f1

/-- Reading a file back (`csv.DictReader`, or the features of a vector file): each line under the names of the header. -/
def read (f : File) : List Record := f.rows.map fun r => f.header.zip r

end Ocgis.Tabular
