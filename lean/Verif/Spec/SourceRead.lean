import Verif.Model.SourceRead
import Verif.Spec.DictSlice

/-! Vocabulary for the statements about variables read from a file when needed. -/

namespace Ocgis.Spec
open Ocgis Ocgis.DictSlice Ocgis.SourceRead
open Ocgis.Array (Arr)

/-- A multi-index inside a shape. -/
def InsideShape (shape idx : List Nat) : Prop :=
  idx.length = shape.length ∧ ∀ (k i n : Nat), idx[k]? = some i → shape[k]? = some n → i < n

/-- Two arrays with the same shape and the same elements. -/
def SameArray {α : Type} (a b : Arr α) : Prop := a.shape = b.shape ∧ ∀ idx, InsideShape a.shape idx → a.elem idx = b.elem idx

/-- The positions an index keeps on an axis of length `n`. -/
def axisKept (i : RawIndex) (n : Nat) : List Nat :=
  match pick i (List.range n) with
  | .ok p => p
  | .error _ => []

/-- An array indexed along every axis. -/
def npSlice {α : Type} (idx : List RawIndex) (a : Arr α) : Arr α :=
  ⟨(idx.zipWith axisKept a.shape).map List.length,
    fun ix => a.elem ((idx.zipWith axisKept a.shape).zipWith (fun p i => p.getD i 0) ix)⟩

/-- The values a caller sees if everything had been read at the start. -/
def eagerRun {α : Type} : Arr α → List (Act α) → List (Arr α)
  | _, [] => []
  | a, .slice idx :: rest => eagerRun (npSlice idx a) rest
  | a, .get :: rest => a :: eagerRun a rest
  | a, .load :: rest => eagerRun a rest
  | _, .set b :: rest => eagerRun b rest
  | a, .remove :: rest => eagerRun a rest

/-- An index that keeps something of an axis of length `n` and keeps it in order: a valid position; `:`; a slice with explicit
ends, in range and not empty; increasing positions; truth values, one for each element and not all false. -/
def Orderly (n : Nat) : RawIndex → Prop
  | .int i => 0 ≤ i ∧ i < n
  | .slice s => s = PySlice.all ∨ ∃ a b : Int, s = ⟨some a, some b⟩ ∧ 0 ≤ a ∧ a < b ∧ b ≤ n
  | .ints xs => xs ≠ [] ∧ xs.Pairwise (· < ·) ∧ ∀ x ∈ xs, 0 ≤ x ∧ x < (n : Int)
  | .bools bs => bs.length = n ∧ true ∈ bs
  | .none => True

/-- A history on an array of the shape: indices are orderly and at most one per slice is an array of positions or truth
values, values set have the shape of the variable, values are not removed. -/
def GoodHistory {α : Type} : List Nat → List (Act α) → Prop
  | _, [] => True
  | shape, .slice idx :: rest =>
    idx.length = shape.length ∧ (∀ (k : Nat) i n, idx[k]? = some i → shape[k]? = some n → Orderly n i) ∧
    (∀ (j k : Nat) x y, idx[j]? = some x → idx[k]? = some y → UsesArray x → UsesArray y → j = k) ∧
    GoodHistory ((idx.zipWith axisKept shape).map List.length) rest
  | shape, .get :: rest => GoodHistory shape rest
  | shape, .load :: rest => GoodHistory shape rest
  | shape, .set a :: rest => a.shape = shape ∧ GoodHistory shape rest
  | _, .remove :: _ => False

/-- The dimension refers to increasing positions of an axis of length `n` of the file. -/
structure RefersTo (d : Dim) (n : Nat) : Prop where
  src : d.srcIdx ≠ none
  aligned : Aligned d
  pos : 0 < d.len
  increasing : (sources d).Pairwise (· < ·)
  within : ∀ x ∈ sources d, 0 ≤ x ∧ x < (n : Int)

/-- The dimensions refer to the axes of the file, one each. -/
def Refer (dims : List Dim) (shape : List Nat) : Prop :=
  dims.length = shape.length ∧ ∀ (k : Nat) d n, dims[k]? = some d → shape[k]? = some n → RefersTo d n

/-- The part of the file the dimensions refer to. -/
def part {α : Type} (file : Arr α) (dims : List Dim) : Arr α :=
  ⟨dims.map fun d => (sources d).length, fun ix => file.elem (dims.zipWith (fun d i => ((sources d).getD i 0).toNat) ix)⟩

end Ocgis.Spec
