import Verif.Model.CsvRead
/-!
# What reading a CSV file should show
-/
namespace Ocgis.Spec
open CsvRead

/-- What record `j` of the file has in the column `name`: its text, or nothing if the record ends before that column. -/
def IsCell (f : CsvRead.File) (name : String) (j : Nat) (c : Cell) : Prop :=
  ∃ (r : Rec) (col : Nat), f.rows[j]? = some r ∧ f.header[col]? = some name ∧ c = (match r.cells[col]? with
    | some s => .text s
    | none => .missing)

/-- The values are those of the records from `a` on, one for each. -/
def ShowsRecords (f : CsvRead.File) (name : String) (a : Nat) (vals : List Cell) : Prop :=
  ∀ i, (h : i < vals.length) → IsCell f name (a + i) vals[i]

/-- An ordinary CSV file: the columns have different names, every record stands on one line, and there are no blank lines. -/
def PlainCsv (f : CsvRead.File) : Prop :=
  f.header.Nodup ∧ ∀ r ∈ f.body, r.lines = 1 ∧ r.cells ≠ []

/-- The variables of a field are the columns, and none was read. -/
def UnreadColumns (f : CsvRead.File) (x : CsvRead.Field) : Prop :=
  x.vars.map (·.name) = f.header ∧ x.empty = false ∧ x.len = x.hi - x.lo ∧ ∀ v ∈ x.vars, v.value = none

/-- What one of `size` ranks shows for a column after it opened the file; nothing if it has no part of it. -/
def shownOn (f : CsvRead.File) (size : Nat) (name : String) (rank : Nat) : List Cell :=
  match openOn f size rank with
  | .error _ => []
  | .ok x => match (getValue f x name).2 with
    | .ok (some vals) => vals
    | _ => []

end Ocgis.Spec
