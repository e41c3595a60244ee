import Verif.Model.Redistribute
import Verif.Spec.Indexing
/-!
# Specification of a redistribution
-/
namespace Ocgis.Spec
open Ocgis.Redistribute (Held Item)

/-- A list cut into consecutive parts for `size` processes: the first processes, as many as can have two elements each, share the
elements evenly, and the others have none. -/
structure EvenParts {β : Type} (size : Nat) (xs : List β) (parts : List (List β)) : Prop where
  count : parts.length = size
  whole : parts.flatten = xs
  filled : ∀ (r : Nat) p, parts[r]? = some p → r < min size (xs.length / 2) → 2 ≤ p.length
  empty : ∀ (r : Nat) p, parts[r]? = some p → min size (xs.length / 2) ≤ r → p = []
  even : ∀ (r r' : Nat) p p', parts[r]? = some p → parts[r']? = some p' → p ≠ [] → p' ≠ [] → p.length ≤ p'.length + 1

/-- All source indices of the dimensions that were given, in the order of the ranks. -/
def allSources (passed : List (Option Dim)) : List Int := (passed.filterMap id).flatMap sources

/-- Where the part of a rank starts. -/
def startOf {β : Type} (parts : List (List β)) (r : Nat) : Nat := ((parts.take r).map List.length).sum

/-- The dimension a collection has under a name. -/
def Named (ds : List Dim) (n : String) (d : Dim) : Prop := ds.find? (·.name = n) = some d

/-- The elements of a file at the given positions. -/
def fileElements {α : Type} (file : List α) (p : List Int) : List α := p.filterMap fun k => file[k.toNat]?

end Ocgis.Spec
