import Verif.Model.GridCells
/-!
# The cells of a grid
-/
namespace Ocgis.Spec
open Ocgis.GridCells

/-- The centre of a cell. -/
def centreOf (g : CGrid) (i j : Nat) : Rat × Rat :=
  match g.coords with
  | .vector x y => (x.value j, y.value i)
  | .matrix x y => (x.value (i, j), y.value (i, j))

/-- The bounds of a cell, of x and of y. -/
def boundsOf (g : CGrid) (i j : Nat) : Option (List Rat) × Option (List Rat) :=
  match g.coords with
  | .vector x y => (x.bounds.map (· j), y.bounds.map (· i))
  | .matrix x y => (x.bounds.map (· (i, j)), y.bounds.map (· (i, j)))

/-- Coordinates have one dimension. -/
def IsVector (g : CGrid) : Prop := ∃ x y, g.coords = .vector x y

/-- The smallest interval with these numbers. -/
def Hull (l : List Rat) (lo hi : Rat) : Prop := lo ∈ l ∧ hi ∈ l ∧ ∀ a ∈ l, lo ≤ a ∧ a ≤ hi

/-- The cell is masked. -/
def CellMasked (g : CGrid) (i j : Nat) : Prop := ∃ m, g.mask = some m ∧ m i j = true

/-- The polygon of a cell: of one-dimensional coordinates the smallest box with its bounds, otherwise its corners in their order. -/
def CellPolygon (g : CGrid) (i j : Nat) (c : Geom) : Prop :=
  ∃ xs ys, boundsOf g i j = (some xs, some ys) ∧
    (IsVector g → ∃ a b p q, c = .box a p b q ∧ Hull xs a b ∧ Hull ys p q) ∧
    (¬IsVector g → xs.length = ys.length ∧ 3 ≤ xs.length ∧ c = .ring (xs.zip ys))

/-- Both coordinates have bounds, and polygons can be made from those of every cell. -/
def Bounded (g : CGrid) : Prop :=
  (∀ i j, (boundsOf g i j).1 ≠ none ∧ (boundsOf g i j).2 ≠ none) ∧
  ∀ i j xs ys, i < g.rows → j < g.cols → boundsOf g i j = (some xs, some ys) →
    xs ≠ [] ∧ ys ≠ [] ∧ (¬IsVector g → xs.length = ys.length ∧ 3 ≤ xs.length)

/-- Intervals one after the other, rising or falling, without gaps and overlaps. -/
def Abutting (n : Nat) (lo hi : Nat → Rat) : Prop :=
  (∀ k, k < n → lo k < hi k) ∧ ((∀ k, k + 1 < n → hi k = lo (k + 1)) ∨ (∀ k, k + 1 < n → lo k = hi (k + 1)))

/-- The point is in the half-open box. -/
def InBox (c : Geom) (x y : Rat) : Prop := ∃ a p b q, c = .box a p b q ∧ a ≤ x ∧ x < b ∧ p ≤ y ∧ y < q

end Ocgis.Spec
