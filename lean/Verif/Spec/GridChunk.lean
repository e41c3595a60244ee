import Verif.Model.GridChunk
import Verif.Spec.Tile
/-!
# The grid chunker
-/
namespace Ocgis.Spec
open Ocgis.GridChunk

/-- The chunk contains the cell. -/
def InChunk (b : Bounds) (y x : Nat) : Prop := b.1.1 ≤ y ∧ y < b.1.2 ∧ b.2.1 ≤ x ∧ x < b.2.2

/-- The number of a cell in its chunk, counting from one row by row. -/
def numberInChunk (b : Bounds) (y x : Nat) : Int := (((y - b.1.1) * (b.2.2 - b.2.1) + (x - b.2.1) + 1 : Nat) : Int)

/-- The number of a cell in the whole grid, counting from one row by row. -/
def numberInGrid (shape : Nat × Nat) (y x : Nat) : Int := ((y * shape.2 + x + 1 : Nat) : Int)

/-- In chunk `ii`, the number `v` means the cell with the global number `g`. -/
def Means : ChunkMap → Nat → Int → Int → Prop
  | .structured shape bounds, ii, v, g =>
    ∃ b y x, bounds[ii]? = some b ∧ InChunk b y x ∧ v = numberInChunk b y x ∧ g = numberInGrid shape y x
  | .unstructured guids, ii, v, g => ∃ ids, guids[ii]? = some ids ∧ 1 ≤ v ∧ ids[(v - 1).toNat]? = some g

/-- The chunks lie inside the grid. -/
def ChunksInside : ChunkMap → Prop
  | .structured shape bounds => ∀ b ∈ bounds, b.1.2 ≤ shape.1 ∧ b.2.2 ≤ shape.2
  | .unstructured _ => True

/-- All the weights, file by file, each with the number of its chunk. -/
def allWeights (files : List (Option WeightFile)) : List (Nat × Int × Int × Rat) :=
  files.zipIdx.flatMap fun fi =>
    match fi.1 with
    | none => []
    | some f => (f.row.zip (f.col.zip f.s)).map fun w => (fi.2, w)

/-- A weight file has as many rows as columns as factors. -/
def SameLength (f : WeightFile) : Prop := f.row.length = f.s.length ∧ f.col.length = f.s.length

end Ocgis.Spec
