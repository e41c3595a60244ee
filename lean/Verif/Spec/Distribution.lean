import Verif.Spec.Indexing
/-!
# Specifications for distributed dimensions
-/
namespace Ocgis.Spec

/-- The indices of a half-open range, none for no range. -/
def indices : Option (Nat × Nat) → List Nat
  | none => []
  | some (lo, hi) => List.range' lo (hi - lo)

/-- The local bounds of the non-empty ranks follow each other without gap, starting at `s`. -/
def Consecutive : Int → List Dim → Prop
  | _, [] => True
  | s, d :: ds =>
    if d.isEmpty then Consecutive s ds
    else d.boundsLocal = (s, s + d.len) ∧ Consecutive (s + d.len) ds

/-- A dimension distributed over the ranks of a communicator: every rank holds a non-empty piece, the
pieces are consecutive from zero, and each piece's source indices (if any) match its length. -/
structure Distributed (ds : List Dim) : Prop where
  live : ∀ d ∈ ds, d.dist = true ∧ d.isEmpty = false ∧ 0 < d.len ∧ Aligned d
  consecutive : Consecutive 0 ds

end Ocgis.Spec
