import Verif.Model.Dimension
/-!
# What an index selects

`pick idx xs` is what numpy returns for `xs[idx]` (an integer index is kept as a one-element array, as the
library does for dimensions).  Nothing here refers to the library's own normalisation.
-/
namespace Ocgis.Spec

/-- numpy selection of a one-dimensional array by a caller-written index. -/
def pick {α : Type _} : RawIndex → List α → Res (List α)
  | .int i, xs => takeInts xs [i]
  | .slice s, xs => .ok (s.get xs)
  | .ints is, xs => takeInts xs is
  | .bools bs, xs => if bs.length ≠ xs.length then .error .indexError else .ok (takeBools xs bs)
  | .none, xs => .ok xs

/-- numpy selection by a normalised index. -/
def pickIndex {α : Type _} : Index → List α → Res (List α)
  | .slice s, xs => .ok (s.get xs)
  | .ints is, xs => takeInts xs is
  | .bools bs, xs => if bs.length ≠ xs.length then .error .indexError else .ok (takeBools xs bs)

/-- The list of source indices of a dimension (empty when it has none). -/
def sources (d : Dim) : List Int :=
  match d.srcIdx with
  | none => []
  | some (.bounds a b) => intRange a b
  | some (.fancy xs) => xs

/-- A run `a, a+1, ..., a+k`. -/
def IsRun (xs : List Int) : Prop := ∃ a b : Int, a < b ∧ xs = intRange a b

/-- A dimension whose source index (if any) has as many elements as the dimension. -/
def Aligned (d : Dim) : Prop :=
  match d.srcIdx with
  | none => True
  | some (.bounds a b) => b - a = d.len
  | some (.fancy xs) => (xs.length : Int) = d.len

instance (d : Dim) : Decidable (Aligned d) := by
  unfold Aligned; split <;> infer_instance

end Ocgis.Spec

namespace Ocgis.Spec

/-- Somewhere in the list an element is followed by one larger by more than one. -/
def HasJump (xs : List Int) : Prop := ∃ l a b r, xs = l ++ a :: b :: r ∧ b - a > 1

/-- The indices for which the library's slicing agrees with numpy on an axis of length `n`: integers and slices
with explicit, ordered, non-negative, in-range ends; in-range integer arrays that either contain a jump or
are a run of consecutive integers; boolean arrays of the right length; `:` and `None`. -/
def Supported (n : Nat) : RawIndex → Prop
  | .int i => 0 ≤ i ∧ i < n
  | .slice s => s = PySlice.all ∨ ∃ a b : Int, s = ⟨some a, some b⟩ ∧ 0 ≤ a ∧ a ≤ b ∧ b ≤ n
  | .ints xs => (∀ x ∈ xs, 0 ≤ x ∧ x < (n : Int)) ∧ (HasJump xs ∨ IsRun xs)
  | .bools bs => bs.length = n
  | .none => True

/-- `ChainOk xs is ys`: applying the indices `is` one after the other to `xs` with numpy gives `ys`, each index
being supported for the list it is applied to, and no intermediate list being empty. -/
inductive ChainOk {α : Type _} : List α → List RawIndex → List α → Prop
  | nil (xs) : ChainOk xs [] xs
  | cons {xs ys zs idx rest} : xs ≠ [] → Supported xs.length idx → pick idx xs = .ok ys → ChainOk ys rest zs →
      ChainOk xs (idx :: rest) zs

end Ocgis.Spec
