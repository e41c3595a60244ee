import Verif.Model.FieldIter
import Verif.Spec.RecordIter

/-! Vocabulary for the statements about the records of a field: which columns a record should have. -/

namespace Ocgis.Spec
open Ocgis.RecordIter Ocgis.Collection Ocgis.FieldIter

/-- What is shown of a variable at a position of the lead: nothing where it is masked. -/
def shownAt {α : Type} (lead v : Var α) (idx : List Nat) : Option α :=
  match v.mask with
  | none => some (v.value (indexAt lead v idx))
  | some m => if m (indexAt lead v idx) then none else some (v.value (indexAt lead v idx))

/-- The column of a variable, under a name. -/
def column {α : Type} (lead v : Var α) (idx : List Nat) (name : String) : String × Cell α := (name, .data (shownAt lead v idx))

/-- Lower and upper bounds, shown with `s`. -/
def boundsColumns {α : Type} (s : α → α) (lead : Var α) (c : Coord α) (idx : List Nat) (lower upper : String) : List (String × Cell α) :=
  match c.var.bounds with
  | none => []
  | some b => [(lower, .data (some (s (b ((indexAt lead c.var idx).headD 0)).1))),
      (upper, .data (some (s (b ((indexAt lead c.var idx).headD 0)).2)))]

/-- The columns of the time: for tabular files as text with year, month and day. -/
def timeColumns {α : Type} (fmt : Fmt α) (tabular : Bool) (lead : Var α) (c : Coord α) (idx : List Nat) : List (String × Cell α) :=
  if tabular then
    [("TIME", .data ((shownAt lead c.var idx).map fmt.str)),
     ("YEAR", .data (((shownAt lead c.var idx).bind fmt.parts).map fun p => p.1)),
     ("MONTH", .data (((shownAt lead c.var idx).bind fmt.parts).map fun p => p.2.1)),
     ("DAY", .data (((shownAt lead c.var idx).bind fmt.parts).map fun p => p.2.2))] ++ boundsColumns fmt.str lead c idx "LB_TIME" "UB_TIME"
  else column lead c.var idx "TIME" :: boundsColumns id lead c idx "LB_TIME" "UB_TIME"

/-- The columns of the level. -/
def levelColumns {α : Type} (lead : Var α) (c : Coord α) (idx : List Nat) : List (String × Cell α) :=
  column lead c.var idx "LEVEL" :: boundsColumns id lead c idx "LB_LEVEL" "UB_LEVEL"

/-- The columns of geometry identifier, realization, time and level under their standard names. -/
def standardColumns {α : Type} (fmt : Fmt α) (tabular : Bool) (fld : Fld α) (lead : Var α) (idx : List Nat) : List (String × Cell α) :=
  (match fld.geom, fld.ugid with | some _, some u => [column lead u idx u.name] | _, _ => []) ++
  (match fld.realization with | some c => [column lead c.var idx "RLZ"] | none => []) ++
  (match fld.time with | some c => timeColumns fmt tabular lead c idx | none => []) ++
  (match fld.level with | some c => levelColumns lead c idx | none => [])

/-- The repeated columns of a coordinate, and the identifier of its dataset. -/
def coordRepeated {α : Type} (c : Option (Coord α)) : List (String × α) :=
  match c with
  | none => []
  | some c => c.var.repeatRecord.getD [] ++ (match c.did with | none => [] | some d => [("DID", d)])

/-- The columns repeated in every record that do not belong to a data variable. -/
def fieldRepeated {α : Type} (fld : Fld α) (o : Opts α) : List (String × α) :=
  o.repeaters.getD [] ++ o.followers.flatMap (fun v => v.repeatRecord.getD []) ++
  (match fld.geom with
    | some g => g.repeatRecord.getD [] ++ (match fld.ugid with | some u => u.repeatRecord.getD [] | none => [])
    | none => []) ++
  coordRepeated fld.realization ++ coordRepeated fld.time ++ coordRepeated fld.level

/-- The names under which the variables are known. -/
def coordNames {α : Type} (c : Option (Coord α)) : List String :=
  match c with
  | none => []
  | some c => c.var.name :: (if c.var.bounds.isSome then ["lb_" ++ c.var.name, "ub_" ++ c.var.name] else [])

def rawNames {α : Type} (fld : Fld α) (o : Opts α) : List String :=
  (fld.data ++ o.followers).map Var.name ++
  (match fld.geom with
    | some g => g.name :: (match fld.ugid with | some u => [u.name] | none => [])
    | none => []) ++
  coordNames fld.realization ++ coordNames fld.time ++ (if fld.time.isSome then ["YEAR", "MONTH", "DAY"] else []) ++ coordNames fld.level

/-- The standard names. -/
def standardNames : List String := ["RLZ", "TIME", "LB_TIME", "UB_TIME", "YEAR", "MONTH", "DAY", "LEVEL", "LB_LEVEL", "UB_LEVEL"]

/-- The identifier of the geometries. -/
def ugidName {α : Type} (fld : Fld α) : List String :=
  match fld.geom, fld.ugid with | some _, some u => [u.name] | _, _ => []

/-- The variables of a field, the coordinates without their bounds. -/
def coordinates {α : Type} (fld : Fld α) : List (Coord α) := fld.realization.toList ++ fld.time.toList ++ fld.level.toList

/-- The variables fit together: sizes belong to the dimensions, all dimensions are among those of the first data variable, the
identifiers are on the dimensions of the geometries, bounds are of coordinates with one dimension and not of the realization, and
repeated columns are not set on coordinates that were made from a dataset. -/
structure FieldFits {α : Type} (size : String → Nat) (fld : Fld α) (o : Opts α) (lead : Var α) : Prop where
  vars : ∀ v ∈ fld.data ++ o.followers, Sized size v ∧ ∀ d ∈ v.dims, d ∈ lead.dims
  geom : ∀ g, fld.geom = some g → Sized size g ∧ ∀ d ∈ g.dims, d ∈ lead.dims
  ugid : ∀ g u, fld.geom = some g → fld.ugid = some u → u.dims = g.dims ∧ u.shape = g.shape
  coords : ∀ c ∈ coordinates fld, Sized size c.var ∧ ∀ d ∈ c.var.dims, d ∈ lead.dims
  bounds : ∀ c ∈ coordinates fld, c.var.bounds.isSome → c.var.dims.length ≤ 1
  realization : ∀ c, fld.realization = some c → c.var.bounds = none
  did : ∀ c ∈ coordinates fld, c.did = none ∨ c.var.repeatRecord = none

/-- The names do not clash: neither those of the variables nor the standard names. -/
structure NamesApart {α : Type} (fld : Fld α) (o : Opts α) (names : List String) (repeated : List (String × α)) : Prop where
  raw : (rawNames fld o).Nodup
  std : ∀ n ∈ standardNames, n ∉ names ∧ n ∉ ugidName fld ∧ ∀ p ∈ repeated, p.1 ≠ n
  repeated : ∀ p ∈ repeated, p.1 ∉ rawNames fld o ∧ p.1 ∉ names
  calcKey : "CALC_KEY" ∉ rawNames fld o

/-- Repeated columns of the same name have the same value. -/
def SameValues {α : Type} (repeated : List (String × α)) : Prop := ∀ p ∈ repeated, ∀ q ∈ repeated, p.1 = q.1 → p.2 = q.2

/-- A position is left out: masked records are not allowed and the first data variable is masked there, or the geometry is; without
geometries, if a coordinate is. -/
def LeftOut {α : Type} (fld : Fld α) (o : Opts α) (lead : Var α) (idx : List Nat) : Prop :=
  o.allowMasked = false ∧ (MaskedAt lead (indexAt lead lead idx) ∨
    (match fld.geom with
      | some g => MaskedAt g (indexAt lead g idx)
      | none => ∃ c ∈ coordinates fld, MaskedAt c.var (indexAt lead c.var idx)))

/-- The columns repeated in every record, those of the data variables among them. -/
def allRepeated {α : Type} (fld : Fld α) (o : Opts α) : List (String × α) :=
  fieldRepeated fld o ++ fld.data.flatMap (fun v => v.repeatRecord.getD [])

/-- Repeated columns as cells. -/
def cells {α : Type} (repeated : List (String × α)) : List (String × Cell α) := repeated.map fun p => (p.1, .data (some p.2))

/-- The columns of a record: the repeated ones, the data variables and followers under their own names, and the standard ones. -/
def recordColumns {α : Type} (fmt : Fmt α) (fld : Fld α) (o : Opts α) (lead : Var α) (idx : List Nat) : List (String × Cell α) :=
  cells (allRepeated fld o) ++ (fld.data ++ o.followers).map (fun v => column lead v idx v.name) ++ standardColumns fmt o.tabular fld lead idx

/-- The columns of a melted record: name and value of one data variable with the columns repeated for it. -/
def meltedRecordColumns {α : Type} (fmt : Fmt α) (fld : Fld α) (o : Opts α) (lead v : Var α) (idx : List Nat) : List (String × Cell α) :=
  cells (fieldRepeated fld o ++ v.repeatRecord.getD []) ++ [("VARIABLE", .text v.name), column lead v idx "VALUE"] ++
    o.followers.map (fun w => column lead w idx w.name) ++ standardColumns fmt o.tabular fld lead idx

/-- The geometry of a record. -/
def geometryCell {α : Type} (fld : Fld α) (lead : Var α) (idx : List Nat) : Option (Cell α) :=
  fld.geom.map fun g => .data (shownAt lead g idx)

end Ocgis.Spec
