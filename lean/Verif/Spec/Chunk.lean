import Verif.Spec.Indexing
namespace Ocgis.Spec

/-- Does the one-dimensional index select position `i` of an axis of length `n`? -/
def selects (n : Nat) (s : Index) (i : Nat) : Bool :=
  match pickIndex s (List.range n) with
  | .ok l => l.contains i
  | .error _ => false

/-- Does the tuple of indices select the element at position `idx` of an array of the given shape? -/
def selectsAll : List Nat → List Index → List Nat → Bool
  | n :: shape, s :: slices, i :: idx => selects n s i && selectsAll shape slices idx
  | [], [], [] => true
  | _, _, _ => false

/-- `idx` is a position of an array of the given shape. -/
def InShape : List Nat → List Nat → Prop
  | n :: shape, i :: idx => i < n ∧ InShape shape idx
  | [], [] => True
  | _, _ => False

/-- Every split count is at least one and at most the length of its dimension. -/
def LegalSplits : List Nat → List Nat → Prop
  | k :: splits, n :: shape => 1 ≤ k ∧ k ≤ n ∧ LegalSplits splits shape
  | [], [] => True
  | _, _ => False

end Ocgis.Spec
