import Verif.Model.Masks
/-!
# Masks
-/
namespace Ocgis.Spec
open Ocgis.Array (Arr) 
open Ocgis.Masks

/-- A multi-index of an array of the given shape. -/
def IdxIn (shape idx : List Nat) : Prop := idx.length = shape.length ∧ ∀ k : Nat, k < shape.length → idx.getD k 0 < shape.getD k 0

/-- What a mask (or none) masks. -/
def maskHas (m : Option (Arr Bool)) (idx : List Nat) : Prop := ∃ a, m = some a ∧ a.elem idx = true

/-- Two indices agree along the dimensions of the same name. -/
def SameCoordinates (srcNames dstNames : List String) (s t : List Nat) : Prop :=
  ∀ (i j : Nat) (n : String), srcNames[i]? = some n → dstNames[j]? = some n → s[i]? = t[j]?

/-- Dimensions of the same name have the same size. -/
def SameSizes (srcNames dstNames : List String) (srcShape dstShape : List Nat) : Prop :=
  ∀ (i j : Nat) (n : String), srcNames[i]? = some n → dstNames[j]? = some n → srcShape[i]? = dstShape[j]?

end Ocgis.Spec
