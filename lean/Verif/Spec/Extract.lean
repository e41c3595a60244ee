import Verif.Spec.Collection
/-!
# What an extraction should leave on either side
-/
namespace Ocgis.Spec
open Ocgis.Collection

/-- `r` is what is taken out of `c` with the variables that `mine` picks: exactly these variables, as they are in `c`, and exactly the
dimensions that one of them has. -/
structure TakenOut (c r : Coll) (mine : String → Prop) : Prop where
  vars : ∀ k u, (k, u) ∈ r.vars ↔ (k, u) ∈ c.vars ∧ mine k
  dims : ∀ d n, (d, n) ∈ r.dims ↔ (d, n) ∈ c.dims ∧ ∃ k u, (k, u) ∈ c.vars ∧ mine k ∧ d ∈ u.dims

/-- `r` is what is left of `c` without the variables that `gone` picks: exactly the other variables, as they are in `c`, and the
dimensions of `c` without those that only the variables taken away had. -/
structure LeftOver (c r : Coll) (gone : String → Prop) : Prop where
  vars : ∀ k u, (k, u) ∈ r.vars ↔ (k, u) ∈ c.vars ∧ ¬gone k
  dims : ∀ d n, (d, n) ∈ r.dims ↔ (d, n) ∈ c.dims ∧
    ((∃ k u, (k, u) ∈ c.vars ∧ ¬gone k ∧ d ∈ u.dims) ∨ ¬∃ k u, (k, u) ∈ c.vars ∧ gone k ∧ d ∈ u.dims)

/-- Variables and dimensions are in the order in which `c` has them. -/
def InOrderOf (c r : Coll) : Prop := r.vars.Sublist c.vars ∧ r.dims.Sublist c.dims

/-- Consistent apart from the tags, which may name variables that are not there. -/
def ConsistentButTags (c : Coll) : Prop := Consistent { c with tags := [] }

/-- The bounds the variable names, if any, are in the collection. -/
def BoundsThere (c : Coll) (v : CVar) : Prop := ∀ b, v.bounds = some b → b ∈ c.vars.map (·.1)

/-- A member of a grid with the given coordinate and mask variables: one of these or the bounds of one of these. -/
def GridMember (c : Coll) (coords : List String) (k : String) : Prop :=
  k ∈ coords ∨ ∃ n v, n ∈ coords ∧ (n, v) ∈ c.vars ∧ v.bounds = some k

end Ocgis.Spec
