import Verif.Model.Reindex
import Verif.Proofs.Collective
/-!
# What re-indexing should give
-/
namespace Ocgis.Spec
open Ocgis.Reindex

/-- `new` are indices, counted from `start`, into `retained`, and they refer to the nodes `old`. -/
def Refers (start : Int) (retained old new : List Int) : Prop :=
  new.length = old.length ∧ ∀ (i : Nat) (k v : Int), new[i]? = some k → old[i]? = some v →
    start ≤ k ∧ retained[(k - start).toNat]? = some v

/-- The list of nodes kept: each once, and exactly those referenced by some rank. -/
def Retains (n : Nat) (cindex : Nat → List Int) (retained : List Int) : Prop :=
  retained.Nodup ∧ ∀ v, v ∈ retained ↔ ∃ r, r < n ∧ v ∈ cindex r

end Ocgis.Spec
