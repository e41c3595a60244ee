import Verif.Model.RecordIter
import Verif.Spec.Masks

/-! Vocabulary for the statements about record iteration. -/

namespace Ocgis.Spec
open Ocgis.RecordIter Ocgis.Collection

/-- The index of a variable at a position of the lead: along every dimension of the variable, the lead's index along
the dimension of that name. -/
def indexAt {α : Type} (lead v : Var α) (idx : List Nat) : List Nat :=
  v.dims.map fun d => idx.getD (lead.dims.idxOf d) 0

/-- The variable is masked at an index. -/
def MaskedAt {α : Type} (v : Var α) (idx : List Nat) : Prop := ∃ m, v.mask = some m ∧ m idx = true

/-- The cell for the value of an iterated variable: `None` where masked values are to be hidden. -/
def Shows {α : Type} (f : It α) (idx : List Nat) (c : Cell α) : Prop :=
  (MaskedAt f.var idx ∧ f.clobber = true → c = .data none)
  ∧ (¬ (MaskedAt f.var idx ∧ f.clobber = true) → c = .data (some (f.var.value idx)))

/-- The sizes of a variable's dimensions are those of the collection. -/
def Sized {α : Type} (size : String → Nat) (v : Var α) : Prop := v.shape = v.dims.map size ∧ v.dims.Nodup

/-- An iterator can follow the lead: no formatter, dimensions among those of the lead, and, if it has the same
dimensions in the same order, still iterating its own shape in its own order. -/
structure Follows {α : Type} (size : String → Nat) (lead f : It α) : Prop where
  plain : f.formatter = none
  sized : Sized size f.var
  subset : ∀ d ∈ f.var.dims, d ∈ lead.var.dims
  order : f.var.dims = lead.var.dims → f.remap = none ∧ f.shape = f.var.shape

/-- A fresh lead iterator. -/
structure Leads {α : Type} (size : String → Nat) (lead : It α) : Prop where
  plain : lead.formatter = none
  sized : Sized size lead.var
  remap : lead.remap = none
  shape : lead.shape = lead.var.shape

/-- The columns do not clash: distinct variable names, repeaters with the same name carry the same value, and no
repeater is named like a variable. -/
structure Columns {α : Type} (its : List (It α)) : Prop where
  names : (its.map fun f => f.var.name).Nodup
  same : ∀ f ∈ its, ∀ g ∈ its, ∀ p ∈ f.repeaters.getD [], ∀ q ∈ g.repeaters.getD [], p.1 = q.1 → p.2 = q.2
  apart : ∀ f ∈ its, ∀ p ∈ f.repeaters.getD [], ∀ g ∈ its, p.1 ≠ g.var.name

/-- The record at a position of the lead is left out: the lead disallows masked records, and some iterator that
disallows them, and whose variable is its primary mask, is masked there. -/
def Omitted {α : Type} (lead : It α) (its : List (It α)) (idx : List Nat) : Prop :=
  lead.allowMasked = false ∧ ∃ f ∈ its, f.allowMasked = false ∧ f.primaryMask = f.var.name
    ∧ MaskedAt f.var (indexAt lead.var f.var idx)

/-- A row holds the value of every iterated variable at the position and every repeater, and no other column. -/
structure RowAt {α : Type} (lead : It α) (its : List (It α)) (idx : List Nat) (r : Row α) : Prop where
  values : ∀ f ∈ its, ∃ c, Dict.get? r f.var.name = some c ∧ Shows f (indexAt lead.var f.var idx) c
  repeaters : ∀ f ∈ its, ∀ p ∈ f.repeaters.getD [], Dict.get? r p.1 = some (.data (some p.2))
  nothingElse : ∀ k c, Dict.get? r k = some c →
    (∃ f ∈ its, k = f.var.name) ∨ ∃ f ∈ its, ∃ p ∈ f.repeaters.getD [], k = p.1

/-- The positions of the lead that are not left out, each once, in row-major (lexicographic) order. -/
structure Positions {α : Type} (lead : It α) (its : List (It α)) (ps : List (List Nat)) : Prop where
  mem : ∀ idx, idx ∈ ps ↔ IdxIn lead.var.shape idx ∧ ¬ Omitted lead its idx
  rowMajor : ps.Pairwise (· < ·)

/-- A melted row at a position: the variable's name and value in their columns, the other variables as they are, no
column for any melted variable. -/
structure MeltedAt {α : Type} (lead : It α) (its : List (It α)) (ms : List String) (m : String) (idx : List Nat)
    (r : Row α) : Prop where
  variable_ : Dict.get? r "VARIABLE" = some (.text m)
  value : ∀ f ∈ its, f.var.name = m → ∃ c, Dict.get? r "VALUE" = some c ∧ Shows f (indexAt lead.var f.var idx) c
  others : ∀ f ∈ its, f.var.name ∉ ms → ∃ c, Dict.get? r f.var.name = some c ∧ Shows f (indexAt lead.var f.var idx) c
  gone : ∀ n ∈ ms, Dict.get? r n = none

/-- The iterators a list of follower arguments stands for. -/
def followersOf {α : Type} (lead : It α) (args : List (Arg α)) : List (It α) :=
  (flattenArgs args).map fun a => (argTree lead a).it

/-- The lead iterator for a variable, as `Iterator(variable, allow_masked=…, primary_mask=…)` makes it. -/
def leadOf {α : Type} (v : Var α) (allowMasked : Bool) (primaryMask : Option String) : It α :=
  mkIt v allowMasked primaryMask none true

end Ocgis.Spec
