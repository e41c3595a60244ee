import Verif.Model.Dist
import Verif.Model.Tile
/-!
# The grid chunker (`spatial/grid_chunker.py`)
-/
namespace Ocgis.GridChunk
open Ocgis.Mpi

/-- Half-open bounds along rows, then columns. -/
abbrev Bounds := (Nat × Nat) × (Nat × Nat)

/-- The dimension `create_slices_for_dimension` creates (driver/nc.py:517-519): distributed, without a source index array given; its
source index is its own range (vmachine/mpi.py `create_dimension`). -/
def fooDim (size : Nat) : Dim := ⟨"foo", some (size : Int), none, true, false, none, none, some (.bounds 0 size)⟩

/-- The local bounds as natural numbers. -/
def localBounds (d : Dim) : Nat × Nat := (d.boundsLocal.1.toNat, d.boundsLocal.2.toNat)

/-- `create_slices_for_dimension(size, splits)` (driver/nc.py:516-525): the local bounds of the pieces of a dimension distributed over as
many ranks as splits, with the default minimum of two elements per rank (vmachine/mpi.py:294). -/
def chunkDimSlices (size splits : Nat) : Res (List (Nat × Nat)) := do
  let ds ← (List.range splits).mapM fun rank => updateDistributed splits 2 rank (fooDim size)
  return ds.map localBounds

/-- The loop over the slices with its counter (driver/nc.py:466-473). -/
def yieldFrom {α : Type _} (yieldIdx : Option Int) : Nat → List α → List α
  | _, [] => []
  | ctr, s :: ss =>
    match yieldIdx with
    | none => s :: yieldFrom yieldIdx (ctr + 1) ss
    | some y =>
      if y ≠ (ctr : Int) then (if (ctr : Int) > y then [] else yieldFrom yieldIdx (ctr + 1) ss)
      else s :: yieldFrom yieldIdx (ctr + 1) ss

/-- `_gc_iter_dst_grid_slices_(grid_chunker, yield_idx)` (driver/nc.py:455-473), for a two-dimensional destination. -/
def dstSlices (ny nx sy sx : Nat) (yieldIdx : Option Int) : Res (List Bounds) := do
  let ys ← chunkDimSlices ny sy
  let xs ← chunkDimSlices nx sx
  return yieldFrom yieldIdx 0 (ys.flatMap fun y => xs.map fun x => (y, x))

/-! ## Merging weight files -/

/-- How the indices of a chunk are found: from the chunk bounds in the index file and the shape of the grid (structured), or from the
identifiers stored in each chunk's grid file (unstructured). -/
inductive ChunkMap where
  | structured (shape : Nat × Nat) (bounds : List Bounds)
  | unstructured (guids : List (List Int))

/-- `_gc_create_global_indices_(shape)[y0:y1, x0:x1].flatten()` (spatial/grid.py:884-886, grid_chunker.py:919-923): the indices count
from one, row by row. -/
def gridIndices (shape : Nat × Nat) (b : Bounds) : List Int :=
  (rangeFrom b.1.1 (min b.1.2 shape.1)).flatMap fun y => (rangeFrom b.2.1 (min b.2.2 shape.2)).map fun x => ((y * shape.2 + x + 1 : Nat) : Int)

/-- `oindices` for the chunk `ii` (grid_chunker.py:896-923). -/
def chunkIndices : ChunkMap → Nat → Res (List Int)
  | .structured shape bounds, ii =>
    match bounds[ii]? with
    | none => .error .indexError
    | some b => .ok (gridIndices shape b)
  | .unstructured guids, ii =>
    match guids[ii]? with
    | none => .error .indexError
    | some g => .ok g

/-- `_gc_remap_weight_variable_` for rows and columns (grid_chunker.py:889-928). -/
def remap (m : ChunkMap) (ii : Nat) (odata : List Int) : Res (List Int) := do
  let oindices ← chunkIndices m ii
  takeInts oindices (odata.map (· - 1))

/-- A weight file: three variables on the dimension `n_s`. -/
structure WeightFile where
  row : List Int
  col : List Int
  s : List Rat

/-- The merged file; an element is missing until it is written. -/
structure Merged where
  row : List (Option Int)
  col : List (Option Int)
  s : List (Option Rat)
  deriving DecidableEq

/-- The first loop (grid_chunker.py:331-343): the length of the merged file. A file that was never written is `none`. -/
def totalSize (strict : Bool) : List (Option WeightFile) → Res Nat
  | [] => .ok 0
  | none :: fs => if strict then .error .ioError else totalSize strict fs
  | some f :: fs => do
    let n ← totalSize strict fs
    return f.s.length + n

/-- One file of the second loop (grid_chunker.py:378-390). What was written of a file before an exception is not represented. -/
def transferOne (src dst : ChunkMap) (ii sidx : Nat) (f : WeightFile) (out : Merged) : Res Merged := do
  let row ← remap dst ii f.row
  let row ← assignSlice out.row sidx (sidx + row.length) (row.map some)
  let col ← remap src ii f.col
  let col ← assignSlice out.col sidx (sidx + col.length) (col.map some)
  let s ← assignSlice out.s sidx (sidx + f.s.length) (f.s.map some)
  return ⟨row, col, s⟩

/-- The second loop (grid_chunker.py:370-391); `ii` counts the files that are missing too. -/
def transfer (strict : Bool) (src dst : ChunkMap) : Nat → Nat → List (Option WeightFile) → Merged → Res Merged
  | _, _, [], out => .ok out
  | ii, sidx, none :: fs, out => if strict then .error .ioError else transfer strict src dst (ii + 1) sidx fs out
  | ii, sidx, some f :: fs, out => do
    let out ← transferOne src dst ii sidx f out
    transfer strict src dst (ii + 1) (sidx + f.s.length) fs out

/-- `create_merged_weight_file(path, strict)` on `nproc` processes (grid_chunker.py:301-392). Auxiliary variables are not modelled. -/
def merge (nproc : Nat) (strict : Bool) (src dst : ChunkMap) (files : List (Option WeightFile)) : Res Merged := do
  if nproc > 1 then throw .valueError
  let n ← totalSize strict files
  transfer strict src dst 0 0 files ⟨List.replicate n none, List.replicate n none, List.replicate n none⟩

/-! ## Inserting weighted data -/

/-- The two-dimensional case (grid_chunker.py:449-456): write each chunk's array at its bounds. -/
def insert2 {β : Type _} : List (Bounds × List (List β)) → List (List β) → Res (List (List β))
  | [], out => .ok out
  | (b, value) :: cs, out => do
    let out ← Tile.paste out b.1 b.2 value
    insert2 cs out

/-- A chunk's array at one time (grid_chunker.py:431-445). -/
def chunkAt {β : Type _} (t : Nat) (c : Bounds × List (List (List β))) : Res (Bounds × List (List β)) :=
  match c.2[t]? with
  | none => .error .indexError
  | some v => .ok (c.1, v)

/-- The chunks' arrays at one time. -/
def chunksAt {β : Type _} (chunks : List (Bounds × List (List (List β)))) (t : Nat) : Res (List (Bounds × List (List β))) :=
  chunks.mapM (chunkAt t)

/-- The three-dimensional case (grid_chunker.py:425-448): for each time of the master file, all chunks. -/
def insert3 {β : Type _} (chunks : List (Bounds × List (List (List β)))) : Nat → List (List (List β)) → Res (List (List (List β)))
  | _, [] => .ok []
  | t, m :: ms => do
    let cs ← chunksAt chunks t
    let m' ← insert2 cs m
    let ms' ← insert3 chunks (t + 1) ms
    return m' :: ms'

end Ocgis.GridChunk
