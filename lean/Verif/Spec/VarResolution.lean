import Verif.Model.VarResolution
/-!
# What the resolution of a coordinate variable should be
-/
namespace Ocgis.Spec
open VarResolution

/-- The distance of two numbers. -/
def distance (a b : Rat) : Rat := if a ≤ b then b - a else a - b

/-- The sum of the distances of successive values. -/
def travelled : List Rat → Rat
  | a :: b :: l => distance a b + travelled (b :: l)
  | _ => 0

/-- The sum of the widths of bounds. -/
def widths : List (Rat × Rat) → Rat
  | [] => 0
  | b :: bs => distance b.1 b.2 + widths bs

/-- Two successive values are on different sides of zero. -/
def Crosses (l : List Rat) : Prop := ∃ (i : Nat) (a b : Rat), l[i]? = some a ∧ l[i + 1]? = some b ∧ ((a < 0 ∧ 0 < b) ∨ (0 < a ∧ b < 0))

end Ocgis.Spec
