import Verif.Model.ChunkFlow
/-!
# What chunked weights should be
-/
namespace Ocgis.ChunkFlow
open Ocgis.Coords (Grid1)
open Ocgis.Select (Box cellBox)
open Ocgis.GeomSelect (Shapely)
open Ocgis.GridChunk (WeightFile Merged)

/-- The interiors of two boxes meet. -/
def Overlap (a b : Box) : Prop := a.minx < b.maxx ∧ b.minx < a.maxx ∧ a.miny < b.maxy ∧ b.miny < a.maxy

/-- What is assumed of `shapely` on boxes: they intersect without touching exactly when their interiors meet. -/
def BoxLaw (s : Shapely Box) : Prop := ∀ a b, (s.intersects a b = true ∧ s.touches a b = false) ↔ Overlap a b

/-- Every coordinate has bounds. -/
structure Bounded (c : CGrid) : Prop where
  has : c.hasBounds = true
  x : c.g.xb.length = c.g.x.length
  y : c.g.yb.length = c.g.y.length

/-- What is assumed of the weights of ESMF: only pairs of cells that overlap have one. -/
def Local (src dst : CGrid) (w : Nat × Nat → Nat × Nat → Rat) : Prop :=
  ∀ c d, w c d ≠ 0 → Overlap (cellBox src.g true c.1 c.2) (cellBox dst.g true d.1 d.2)

/-- No source cell reaches further than `r` from its centre. -/
def Reach (c : CGrid) (r : Rat) : Prop :=
  ∀ i j, i < c.ny → j < c.nx →
    c.g.x.getD j 0 - r ≤ (cellBox c.g true i j).minx ∧ (cellBox c.g true i j).maxx ≤ c.g.x.getD j 0 + r ∧
    c.g.y.getD i 0 - r ≤ (cellBox c.g true i j).miny ∧ (cellBox c.g true i j).maxy ≤ c.g.y.getD i 0 + r

/-- The weights of a file: row, column and factor. -/
def entries (f : WeightFile) : List (Int × Int × Rat) := f.row.zip (f.col.zip f.s)

/-- The weights of a merged file; `none` for what was never written. -/
def mergedEntries (m : Merged) : List (Option Int × Option Int × Option Rat) := m.row.zip (m.col.zip m.s)

/-- The weights of the whole source and the whole destination grid, computed at once. -/
def wholeWeights (src dst : CGrid) (w : Nat × Nat → Nat × Nat → Rat) : List (Int × Int × Rat) :=
  entries (fileOf w ((0, src.ny), (0, src.nx)) (fun c => src.masked c.1 c.2) ((0, dst.ny), (0, dst.nx))
    (fun d => dst.masked d.1 d.2))

/-- The merged file has the weights of the whole: the same, each as often, in some order. -/
def SameWeights (m : Merged) (ws : List (Int × Int × Rat)) : Prop :=
  (mergedEntries m).Perm (ws.map fun e => (some e.1, some e.2.1, some e.2.2))

/-- Each value is at the distance `h` from the one before, and none is negative. -/
def Even (h : Rat) : List Rat → Prop
  | a :: b :: rest => 0 ≤ a ∧ (b - a = h ∨ a - b = h) ∧ Even h (b :: rest)
  | [a] => 0 ≤ a
  | [] => True

/-- The weights of conservative regridding with destination areas, up to the factor one over the area of the
destination cell: the area two cells have in common. -/
def areaWeight (src dst : CGrid) (c d : Nat × Nat) : Rat :=
  commonArea (cellBox src.g true c.1 c.2) (cellBox dst.g true d.1 d.2)

/-- The processes that have a slice for a chunk have that of the chunk, and some process has it. -/
def Agree {α : Type} (slices : List α) (gathered : List (List (Option α))) : Prop :=
  (∀ r ∈ gathered, r.length = slices.length) ∧
  (∀ r ∈ gathered, ∀ (k : Nat) a b, slices[k]? = some a → r[k]? = some (some b) → b = a) ∧
  ∀ k, k < slices.length → ∃ r ∈ gathered, ∃ a, r[k]? = some (some a)

end Ocgis.ChunkFlow
