import Verif.Model.DictSlice
import Verif.Spec.Indexing
/-!
# Slicing by dimension names
-/
namespace Ocgis.Spec
open Ocgis.DictSlice

/-- For every dimension name, the positions kept along it. -/
abbrev Kept := String → List Nat

/-- The index into the sliced array as an index into the original one: along the dimension `n` the `i`th of the kept positions. -/
def original (kept : Kept) (names : List String) (idx : List Nat) : List Nat := names.zipWith (fun n i => (kept n).getD i 0) idx

/-- The variable `v'` is `v` restricted to the kept positions of each of its dimensions. -/
structure Restricts {α : Type} (kept : Kept) (v v' : DVar α) : Prop where
  names : v'.names = v.names
  shape : v'.shape = v.names.map fun n => (kept n).length
  value : ∀ idx, (∀ (k i : Nat), idx[k]? = some i → i < v'.shape.getD k 0) → idx.length = v'.shape.length →
    v'.value idx = v.value (original kept v.names idx)
  unmasked : v'.mask = none ↔ v.mask = none
  mask : ∀ m m', v.mask = some m → v'.mask = some m' →
    ∀ idx, (∀ (k i : Nat), idx[k]? = some i → i < v'.shape.getD k 0) → idx.length = v'.shape.length → m' idx = m (original kept v.names idx)

/-- An index given by an array of positions or of truth values that is not turned into a slice. -/
def UsesArray : RawIndex → Prop
  | .ints is => HasJump is
  | .bools _ => True
  | _ => False

end Ocgis.Spec
