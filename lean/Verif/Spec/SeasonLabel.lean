import Verif.Model.SeasonLabel
/-!
# Seasons
-/
namespace Ocgis.Spec
open Ocgis.SeasonLabel

/-- Two to twelve months one after the other, January after December. -/
def MonthRun (ms : List Nat) : Prop := ∃ s n, s < 12 ∧ 2 ≤ n ∧ n ≤ 12 ∧ ms = (List.range n).map fun i => (s + i) % 12 + 1

/-- The seasons of a grouping. -/
def seasonsOf : List Part → List (List Nat)
  | [] => []
  | .season ms :: l => ms :: seasonsOf l
  | _ :: l => seasonsOf l

/-- The flag that holds: the last one. -/
def flagOf (g : List Part) : Option Part := (g.filter fun p => p == .unique || p == .year).getLast?

/-- The names of the months. -/
def monthNames : List String :=
  ["January", "February", "March", "April", "May", "June", "July", "August", "September", "October", "November", "December"]

/-- The first letter of the name of a month, counted from one. -/
def initial (m : Nat) : Char := ((monthNames.map fun n => n.toList.headD '?')[m - 1]?).getD '?'

end Ocgis.Spec
