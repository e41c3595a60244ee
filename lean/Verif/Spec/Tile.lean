import Verif.Model.Tile
/-!
# Tiles
-/
namespace Ocgis.Spec
open Ocgis.Tile

/-- The tile contains a cell. -/
def TileHas (t : Tile) (i j : Nat) : Prop := t.row.1 ≤ i ∧ i < t.row.2 ∧ t.col.1 ≤ j ∧ j < t.col.2

/-- The cell of an array at a place. -/
def cellAt {α : Type _} (g : List (List α)) (i j : Nat) : Option α := (g[i]?).bind (·[j]?)

/-- An array with so many rows and columns. -/
def HasShape {α : Type _} (g : List (List α)) (nrow ncol : Nat) : Prop := g.length = nrow ∧ ∀ row ∈ g, row.length = ncol

/-- The place is masked by the spatial mask, if there is one. -/
def maskedAt (mask : Option (List (List Bool))) (i j : Nat) : Bool :=
  match mask with
  | none => false
  | some m => cellAt m i j == some true

end Ocgis.Spec
