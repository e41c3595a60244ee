import Verif.Model.Coords
/-!
# What the coordinate properties talk about
-/
namespace Ocgis.Spec
open Ocgis.Coords (Corners)

/-- The evenly spaced vector `a, a + d, ...`. -/
def evenly (a d : Rat) (n : Nat) : List Rat := (List.range n).map fun (i : Nat) => a + (i : Rat) * d

/-- Neighbouring cells share their corners. -/
def Shared {α : Type _} (m n : Nat) (cells : Nat → Nat → Corners α) : Prop :=
  (∀ i j, i < m → j + 1 < n → (cells i j).c1 = (cells i (j + 1)).c0 ∧ (cells i j).c2 = (cells i (j + 1)).c3) ∧
  (∀ i j, i + 1 < m → j < n → (cells i j).c3 = (cells (i + 1) j).c0 ∧ (cells i j).c2 = (cells (i + 1) j).c1)

/-- The corners of a rectangle, counter-clockwise from the lower left. -/
def rectangle (x y : Rat × Rat) : List (Rat × Rat) := [(x.1, y.1), (x.2, y.1), (x.2, y.2), (x.1, y.2)]

/-- Twice the signed area of a four-cornered polygon; positive when its corners are listed counter-clockwise. -/
def signedArea2 : List (Rat × Rat) → Rat
  | [a, b, c, d] => (a.1 * b.2 - b.1 * a.2) + (b.1 * c.2 - c.1 * b.2) + (c.1 * d.2 - d.1 * c.2) + (d.1 * a.2 - a.1 * d.2)
  | _ => 0

end Ocgis.Spec
