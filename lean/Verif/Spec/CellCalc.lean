import Verif.Model.CellCalc
/-!
# Cell by cell
-/
namespace Ocgis.Spec
open Ocgis.Aggregate Ocgis.CellCalc

/-- The variable `o` fits the first variable `a`: its dimensions are among those of `a`, in any order, with the same sizes; dimensions that
are not realization, time, level, row or column are the same in both, in the same order and at the same places. -/
structure FitsFirst {α : Type _} (size : String → Nat) (a o : Operand α) : Prop where
  nodup : o.names.Nodup
  shape : o.shape = o.names.map size
  within : ∀ n ∈ o.names, n ∈ a.names
  extras : o.names.filter (fun n => !standard.contains n) = a.names.filter fun n => !standard.contains n
  places : ∀ n ∈ o.names, n ∉ standard → o.names.idxOf n = a.names.idxOf n

/-- The element of a variable at a place given by dimension names. -/
def Operand.at {α : Type _} (o : Operand α) (pos : String → Nat) : Cell α := o.cell (o.names.map pos)

/-- What a calculation's formula is applied to at a place: the elements of its variables there, masked also if it hides such values. -/
def inputsAt {α : Type _} (c : Calc α) (ops : List (Operand α)) (pos : String → Nat) : List (Cell α) :=
  ops.zipIdx.map fun p => ((Operand.at p.1 pos).1, (Operand.at p.1 pos).2 || c.hide p.2 (Operand.at p.1 pos).1)

end Ocgis.Spec
