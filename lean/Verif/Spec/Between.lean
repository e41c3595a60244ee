import Verif.Model.Between
/-!
# Values and cells in a range
-/
namespace Ocgis.Spec

/-- The value lies in the range: with its ends by default, without them with `closed` (the code's name for it). -/
def InRange (closed : Bool) (lower upper v : Rat) : Prop :=
  if closed then lower < v ∧ v < upper else lower ≤ v ∧ v ≤ upper

/-- The cell from `lo` to `hi` meets the range. With `closed` an inner point of the cell must lie in the range. By default the
ends of the cell count as well, except that of two cells with a common end only the upper one counts as containing it (the
cells of contiguous bounds do not contain their upper end). -/
def CellInRange (closed contiguous : Bool) (lower upper lo hi : Rat) : Prop :=
  if closed then ∃ x, lo < x ∧ x < hi ∧ lower ≤ x ∧ x ≤ upper
  else if contiguous then ∃ x, lo ≤ x ∧ x < hi ∧ lower ≤ x ∧ x ≤ upper
  else ∃ x, lo ≤ x ∧ x ≤ hi ∧ lower ≤ x ∧ x ≤ upper

/-- The cells are proper, and written in the same direction. -/
def SameDirection (bounds : List (Rat × Rat)) : Prop := (∀ b ∈ bounds, b.1 < b.2) ∨ (∀ b ∈ bounds, b.2 < b.1)

/-- The first two cells have a common end. -/
def ShareEnd : List (Rat × Rat) → Prop
  | a :: b :: _ => a.1 = b.1 ∨ a.1 = b.2 ∨ a.2 = b.1 ∨ a.2 = b.2
  | _ => False

/-- The indices `idx` are, in order, those of the elements with the property. -/
def Names {α : Type _} (idx : List Nat) (l : List α) (p : α → Prop) : Prop :=
  idx.Pairwise (· < ·) ∧ ∀ i : Nat, i ∈ idx ↔ ∃ a, l[i]? = some a ∧ p a

/-- The elements of `l` at the indices. -/
def elementsAt {α : Type _} (l : List α) (idx : List Nat) : List α := idx.filterMap (l[·]?)

end Ocgis.Spec
