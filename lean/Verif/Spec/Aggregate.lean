import Verif.Model.Aggregate
/-!
# Aggregation by position
-/
namespace Ocgis.Spec
open Ocgis.Aggregate

/-- The same position at another time, row and column. -/
def at3 (pos : String → Nat) (t y x : Nat) : String → Nat :=
  fun n => if n = "time" then t else if n = "y" then y else if n = "x" then x else pos n

/-- The values of one group for the given position's realization, level and other dimensions: for each of the group's time steps, in order, the
array over rows and columns. -/
def groupBlock {α : Type _} (v : AVar α) (group : List Bool) (pos : String → Nat) : List (Nat → Nat → Cell α) :=
  ((List.range group.length).filter fun t => group.getD t false).map fun t y x => v.arr.elem (v.names.map (at3 pos t y x))

/-- The values of one group at the given position. -/
def groupColumn {α : Type _} (v : AVar α) (group : List Bool) (pos : String → Nat) : List (Cell α) :=
  ((List.range group.length).filter fun t => group.getD t false).map fun t =>
    v.arr.elem (v.names.map fun n => if n = "time" then t else pos n)

/-- A position of the output: within the size of each of the variable's dimensions, one of the groups for the time. Standard dimensions that
the variable does not have are zero. -/
structure OutputPosition (names : List String) (size : String → Nat) (ngroups : Nat) (pos : String → Nat) : Prop where
  inside : ∀ n ∈ names, n ≠ "time" → pos n < size n
  time : pos "time" < ngroups
  absent : ∀ n, n ∉ names → pos n = 0

end Ocgis.Spec
