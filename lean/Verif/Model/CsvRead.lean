import Verif.Model.Dist
import Verif.Model.Tabular
/-!
# Reading CSV files

Models `DriverCSV` (driver/csv_.py:20-55) with the parts it rests on: the variables of a tabular file (driver/base.py:333-375, 596-623), their
distributed dimension (driver/base.py:184-230, 879-881; vmachine/mpi.py:294-354), and the reading of a value when it is needed
(variable/base.py:765-823, 1055-1064, 1305-1312, 1689-1698).  `csv.reader` is taken as given: a file is its records, of which each has cells
and a number of lines.  All variables of a field have the dimension of the records; values that are assigned have its length.  A file without
any line is left out.  Arrays are not shared between fields (C85).
-/
namespace Ocgis.CsvRead
open Mpi

/-- One record below the header: its cells, and on how many lines of the file it stands. A blank line has no cells. -/
structure Rec where
  cells : List String
  lines : Nat := 1
  deriving DecidableEq, Repr

/-- A CSV file. -/
structure File where
  header : List String
  body : List Rec
  deriving DecidableEq, Repr

/-- A value of a variable: text, Python's `None`, or the value that arrays are filled with. -/
inductive Cell
  | text (s : String)
  | missing
  | filler
  deriving DecidableEq, Repr

/-- `sum(1 for _ in f)` (driver/csv_.py:54): the lines that follow the header. -/
def File.lineCount (f : File) : Nat := (f.body.map (·.lines)).sum

/-- The records that `csv.DictReader` gives: it passes over blank lines. -/
def File.rows (f : File) : List Rec := f.body.filter fun r => !r.cells.isEmpty

/-- `row[name]` of `csv.DictReader`: of columns with the same name the last one; `None` where the record is short. None if there is no
such column. -/
def cellOf : List String → List String → String → Option Cell
  | [], _, _ => none
  | h :: hs, cs, name =>
    match cellOf hs cs.tail name with
    | some c => some c
    | none =>
      if h = name then some (match cs.head? with
        | some s => .text s
        | none => .missing)
      else none

/-- A variable of a field; `value` is none until it is allocated. -/
structure Var where
  name : String
  value : Option (List Cell) := none
  deriving DecidableEq, Repr

/-- The variables of a field on one rank, the length of its dimension there, and the bounds of that dimension on this rank. -/
structure Field where
  vars : List Var
  len : Nat
  lo : Nat
  hi : Nat
  empty : Bool := false
  deriving DecidableEq, Repr

/-- The keys of `meta['variables']` (driver/csv_.py:50-53): each name once. -/
def columns : List String → List String
  | [] => []
  | h :: hs => h :: (columns hs).filter (· != h)

/-- The field of a CSV file on one of `size` ranks (driver/csv_.py:42-55; driver/base.py:184-230, 359-375, 596-623): the dimension of the
records is distributed with at least two on each rank. -/
def openOn (f : File) (size rank : Nat) : Res Field :=
  let vars := (columns f.header).map fun n => { name := n }
  match getRankBounds f.lineCount (effectiveSize size 2 f.lineCount) rank with
  | .error e => .error e
  | .ok (some (a, b)) => .ok { vars := vars, len := b - a, lo := a, hi := b }
  | .ok none => .ok { vars := vars, len := 0, lo := 0, hi := 0, empty := true }

/-- The loop over the variables for one record (driver/csv_.py:35-38). An exception leaves what was done before it. -/
def putRow (header : List String) (r : Rec) (i len : Nat) : List Var → List Var × Res Unit
  | [] => ([], .ok ())
  | v :: vs =>
    let value := v.value.getD (List.replicate len .filler)
    match cellOf header r.cells v.name with
    | none => ({ v with value := some value } :: vs, .error .keyError)
    | some c =>
      let rest := putRow header r i len vs
      ({ v with value := some (value.set i c) } :: rest.1, rest.2)

/-- The loop over the records (driver/csv_.py:29-38). -/
def readRows (header : List String) (len lo hi : Nat) : Nat → List Rec → List Var → List Var × Res Unit
  | _, [], vs => (vs, .ok ())
  | idx, r :: rs, vs =>
    if idx < lo then readRows header len lo hi (idx + 1) rs vs
    else if hi ≤ idx then (vs, .ok ())
    else match putRow header r (idx - lo) len vs with
      | (vs', .error e) => (vs', .error e)
      | (vs', .ok _) => readRows header len lo hi (idx + 1) rs vs'

/-- `field[name]`. -/
def Field.get (x : Field) (name : String) : Option Var := x.vars.find? fun v => v.name == name

/-- `field[name].get_value()` (variable/base.py:1305-1312, 1689-1698; driver/csv_.py:20-39): all variables of the field are read when one is.
If no record was read the variable is still without a value when it is returned, and reading starts again without end: `RecursionError`
is a `RuntimeError`. -/
def getValue (f : File) (x : Field) (name : String) : Field × Res (Option (List Cell)) :=
  match x.get name with
  | none => (x, .error .keyError)
  | some v =>
    if x.empty then (x, .ok none)
    else match v.value with
      | some c => (x, .ok (some c))
      | none =>
        match readRows f.header x.len x.lo x.hi 0 f.rows x.vars with
        | (vs, .error e) => ({ x with vars := vs }, .error e)
        | (vs, .ok _) =>
          let y := { x with vars := vs }
          match (y.get name).bind (·.value) with
          | none => (y, .error .runtimeError)
          | some c => (y, .ok (some c))

/-- `field[{'n_records': slc}]` for the positions `sel` (variable/base.py:322-334, 1759-1793; variable/dimension.py:72-97, 367-395): the
bounds of the sliced dimension on this rank start with zero again. -/
def slice (x : Field) (sel : List Nat) : Field :=
  { x with
    vars := x.vars.map fun v => { v with value := v.value.map fun c => sel.map fun i => c.getD i .filler }
    len := sel.length
    lo := 0
    hi := sel.length }

/-- `field[old].set_name(new)` (variable/base.py:156-165): the variable takes the place of one with the new name, or is the last. -/
def rename (x : Field) (old new : String) : Field :=
  match x.get old with
  | none => x
  | some v =>
    let rest := x.vars.filter fun w => w.name != old
    let v' : Var := { v with name := new }
    { x with vars := if rest.any (fun w => w.name == new) then rest.map (fun w => if w.name = new then v' else w) else rest ++ [v'] }

/-- `field.add_variable(Variable(name, value, dimensions))` for a name that is new. -/
def addVar (x : Field) (name : String) (value : List Cell) : Field := { x with vars := x.vars ++ [{ name := name, value := some value }] }

/-- `field[name].set_value(value)`. -/
def assign (x : Field) (name : String) (value : List Cell) : Field :=
  { x with vars := x.vars.map fun v => if v.name = name then { v with value := some value } else v }

/-- The file that `Tabular` leaves (driver/csv_.py:57-76), as it is read: `breaks` counts the line breaks in a cell. -/
def ofTable (breaks : String → Nat) (t : Tabular.File) : File :=
  { header := t.header, body := t.rows.map fun r => { cells := r, lines := 1 + (r.map breaks).sum } }

end Ocgis.CsvRead
