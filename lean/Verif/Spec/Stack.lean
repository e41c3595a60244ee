import Verif.Model.Stack
import Verif.Spec.Masks
/-!
# Concatenation of arrays along an axis
-/
namespace Ocgis.Spec
open Ocgis.Array (Arr)

/-- How many elements along the axis come before the `k`th part. -/
def partOffset {α : Type} (axis : Nat) (parts : List (Arr α)) (k : Nat) : Nat := ((parts.take k).map fun p : Arr α => p.shape.getD axis 0).sum

/-- `whole` is the concatenation of the parts along the axis, in order. -/
structure Concatenates {α : Type} (axis : Nat) (parts : List (Arr α)) (whole : Arr α) : Prop where
  /-- its size along the axis is the sum of the parts' -/
  size : whole.shape[axis]? = some ((parts.map fun p : Arr α => p.shape.getD axis 0).sum)
  /-- the other sizes are those of every part -/
  others : ∀ p ∈ parts, p.shape.length = whole.shape.length ∧ ∀ k : Nat, k ≠ axis → p.shape[k]? = whole.shape[k]?
  /-- every element of every part is where it belongs -/
  elem : ∀ (k : Nat) (p : Arr α) (idx : List Nat), parts[k]? = some p → IdxIn p.shape idx →
    whole.elem (idx.set axis (partOffset axis parts k + idx.getD axis 0)) = p.elem idx

end Ocgis.Spec
