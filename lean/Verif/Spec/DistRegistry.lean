import Verif.Model.DistRegistry
/-!
# What a distribution should know
-/
namespace Ocgis.Spec
open DistRegistry

/-- All ranks know the same of every group. -/
def SameOnRanks (s : State) : Prop := ∀ r ∈ s.ranks, ∀ r' ∈ s.ranks, ∀ p, s.groups r p = s.groups r' p

/-- The group of a rank has this dimension under this key. -/
def HasDim (s : State) (r : Nat) (p : List String) (key : String) (d : Dim) : Prop := ∃ g, s.groups r p = some g ∧ get? key g.dims = some d

/-- The group of a rank has nothing under this key, or is not there. -/
def LacksDim (s : State) (r : Nat) (p : List String) (key : String) : Prop := ∀ g, s.groups r p = some g → get? key g.dims = none

/-- The same for variables. -/
def HasVar (s : State) (r : Nat) (p : List String) (key : String) (dims : List String) : Prop :=
  ∃ g, s.groups r p = some g ∧ get? key g.vars = some dims

/-- The group has no such variable, or is not there. -/
def LacksVar (s : State) (r : Nat) (p : List String) (key : String) : Prop := ∀ g, s.groups r p = some g → get? key g.vars = none

end Ocgis.Spec
