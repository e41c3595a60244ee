import Verif.Model.DatasetUid
/-!
# What identifiers of datasets should be
-/
namespace Ocgis.Spec
open DatasetUid

/-- No request dataset of the caller is there twice. -/
def RequestsDiffer (xs : List Item) : Prop :=
  ∀ (i j : Nat) (x y : Item) (n : Nat), xs[i]? = some x → xs[j]? = some y → x.source = .object (.request n) → y.source = .object (.request n) → i = j

/-- The identifier at a position is the one the dataset came with, or its position counted from one. -/
def ComesWithOrPosition (u : Uids) (xs : List Item) (out : List Int) : Prop :=
  out.length = xs.length ∧ ∀ (i : Nat) x n, xs[i]? = some x → out[i]? = some n → n = (given u x.source).getD ((i + 1 : Nat) : Int)

/-- Identifiers that were given differ from each other and from the positions of datasets without one. -/
def NoClash (u : Uids) (xs : List Item) : Prop :=
  (∀ (i j : Nat) x y n, xs[i]? = some x → xs[j]? = some y → given u x.source = some n → given u y.source = some n → i = j) ∧
  ∀ (i j : Nat) x y n, xs[i]? = some x → xs[j]? = some y → given u x.source = some n → given u y.source = none → n ≠ ((j + 1 : Nat) : Int)

end Ocgis.Spec
