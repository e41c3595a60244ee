import Verif.Model.SpatialColl

/-! Vocabulary for the statements about spatial collections. -/

namespace Ocgis.Spec
open Ocgis Ocgis.SpatialColl

/-- The elements of a list in the order of their first occurrence. -/
def firsts {α : Type} [DecidableEq α] : List α → List α
  | [] => []
  | a :: l => a :: (firsts l).filter (· ≠ a)

/-- An addition that should be accepted after the additions `before`: a new name in its container, or a forced one. -/
def Acceptable (before : List Add) (a : Add) : Prop :=
  a.force = true ∨ ∀ b ∈ before, ¬ (b.key = a.key ∧ b.name = a.name)

/-- The field last filed under a container and a name. -/
def LastFiled (as : List Add) (k : Option Int) (n : String) (f : Nat) : Prop :=
  ∃ before a after, as = before ++ a :: after ∧ a.key = k ∧ a.name = n ∧ a.field = f ∧ Acceptable before a
    ∧ ∀ b ∈ after, b.key = k → b.name = n → b.force = false

end Ocgis.Spec
