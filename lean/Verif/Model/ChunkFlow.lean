import Verif.Model.GridChunk
import Verif.Model.SpatialSelect
import Verif.Model.GeomSelect
/-!
# From grids to chunks to merged weights (`spatial/grid_chunker.py`)

Grids with coordinate vectors, on one process, in the same coordinate system and wrapped alike, and chunks by index.
ESMF is not part of the code: its weights are a parameter (`fileOf`).
-/
namespace Ocgis.ChunkFlow
open Ocgis.Coords (Grid1)
open Ocgis.Select (Box arrayResolution resolution hint cellBox)
open Ocgis.GeomSelect (Shapely Rect gridSubset anyTrue)
open Ocgis.GridChunk (Bounds WeightFile Merged ChunkMap dstSlices merge)

/-- A grid with coordinate vectors: whether it has bounds, and its mask. -/
structure CGrid where
  g : Grid1
  hasBounds : Bool
  mask : Option (Nat → Nat → Bool)

/-- The number of rows and columns. -/
def CGrid.ny (c : CGrid) : Nat := c.g.y.length
def CGrid.nx (c : CGrid) : Nat := c.g.x.length

/-- The mask at a cell. -/
def CGrid.masked (c : CGrid) (i j : Nat) : Bool := c.mask.elim false fun m => m i j

/-- The grid as an object to select from; with bounds its abstraction is polygon (spatial/grid.py:816-821). -/
def CGrid.grid (c : CGrid) : GeomSelect.Grid Box := ⟨c.ny, c.nx, cellBox c.g c.hasBounds, c.mask⟩

/-- `constants.RESOLUTION_LIMIT` (constants.py:121). -/
def limit : Nat := 100

/-- `resolution_max` (spatial/base.py:473-480). -/
def resolutionMax (g : Grid1) : Rat := max (arrayResolution limit g.x) (arrayResolution limit g.y)

/-- The arguments of `GridChunker` that matter here (grid_chunker.py:106-145); `optimized_bbox_subset='auto'` is `true` for
grids with coordinate vectors (grid_chunker.py:257-261). -/
structure Options where
  buffer : Option Rat := none
  srcRes : Option Rat := none
  dstRes : Option Rat := none
  optimized : Bool := true
  checkContains : Bool := false
  allowMasked : Bool := true

/-- `buffer_value` (grid_chunker.py:178-212), with `BUFFER_RESOLUTION_MODIFIER = 2` (constants.py:512). -/
def bufferValue (o : Options) (src dst : Grid1) : Rat :=
  match o.buffer with
  | some b => b
  | none =>
    let d := o.dstRes.getD (resolutionMax dst)
    let s := o.srcRes.getD (resolutionMax src)
    2 * (if d ≤ s then d else s)

/-- The smallest and the largest element, `none` for an empty array. -/
def smallest : List Rat → Option Rat
  | [] => none
  | a :: l => some (l.foldl min a)
def largest : List Rat → Option Rat
  | [] => none
  | a :: l => some (l.foldl max a)

/-- The part `[a, b)` of a list. -/
def part {α : Type} (l : List α) (a b : Nat) : List α := (l.drop a).take (b - a)

/-- `_get_extent_` of a slice of the grid (spatial/grid.py:854-878): of the bounds when there are some. -/
def extent (c : CGrid) (b : Bounds) : Res Box :=
  let col := if c.hasBounds then (part c.g.xb b.2.1 b.2.2).flatMap fun p => [p.1, p.2] else part c.g.x b.2.1 b.2.2
  let row := if c.hasBounds then (part c.g.yb b.1.1 b.1.2).flatMap fun p => [p.1, p.2] else part c.g.y b.1.1 b.1.2
  match smallest col, smallest row, largest col, largest row with
  | some x0, some y0, some x1, some y1 => .ok ⟨x0, y0, x1, y1⟩
  | _, _, _, _ => .error .valueError

/-- The area of the intersection of two boxes. -/
def commonArea (a b : Box) : Rat :=
  max 0 (min a.maxx b.maxx - max a.minx b.minx) * max 0 (min a.maxy b.maxy - max a.miny b.miny)

/-- `does_contain(container, containee)` with the tolerances of `np.isclose` (grid_chunker.py:931-933). -/
def contains (a b : Box) : Bool :=
  decide (Select.absR (commonArea a b - commonArea b b) ≤ 1 / 100000000 + (1 / 100000) * Select.absR (commonArea b b))

/-- A rectangle as bounds. -/
def bounds (q : Rect) : Bounds := ((q.r0, q.r1), (q.c0, q.c1))

/-- The cells of a slice. -/
def cells (b : Bounds) : List (Nat × Nat) :=
  (rangeFrom b.1.1 b.1.2).flatMap fun i => (rangeFrom b.2.1 b.2.2).map fun j => (i, j)

/-- One pass of the loop of `iter_src_grid_subsets` (grid_chunker.py:533-689): a destination chunk with all cells masked
is refused (554-569); the source is selected by the buffered box around the chunk (571-625, `keep_touches=False`);
then the checks (643-653).  A chunk without cells is an error of the model. -/
def chunkSource (s : Shapely Box) (o : Options) (src dst : CGrid) (b : Bounds) : Res (GeomSelect.GridOut Box) := do
  if dst.mask.isSome && (cells b).all (fun c => dst.masked c.1 c.2) then .error .valueError
  let e ← extent dst b
  let box := e.expand (bufferValue o src.g dst.g)
  let around ← if o.optimized then .ok box else (resolution limit src.g).map fun r => box.expand (r * (5 / 4))
  let out ← gridSubset s src.grid .intersects box (hint src.g around) none false o.optimized
  if !o.allowMasked && out.mask.any (anyTrue (out.slice.r1 - out.slice.r0) (out.slice.c1 - out.slice.c0)) then
    .error .valueError
  if o.checkContains then
    let se ← extent src (bounds out.slice)
    if !contains se e then .error .valueError
  .ok out

/-- ESMF (not part of the code) on a source and a destination chunk: `w` is the weight of a pair of cells.  The file has
the pairs of cells that are not masked and whose weight is not zero; they are numbered within the chunks from one, row
by row. -/
def fileOf (w : Nat × Nat → Nat × Nat → Rat) (srcSlice : Bounds) (srcMask : Nat × Nat → Bool) (dstSlice : Bounds)
    (dstMask : Nat × Nat → Bool) : WeightFile :=
  let number (b : Bounds) (c : Nat × Nat) : Int := (((c.1 - b.1.1) * (b.2.2 - b.2.1) + (c.2 - b.2.1) + 1 : Nat) : Int)
  let es := (cells dstSlice).flatMap fun d =>
    if dstMask d then [] else
      (cells srcSlice).filterMap fun c =>
        if srcMask c || w c d == 0 then none else some (number dstSlice d, number srcSlice c, w c d)
  ⟨es.map (·.1), es.map (·.2.1), es.map (·.2.2)⟩

/-- The mask of a selection at a cell of the whole grid. -/
def outMask {G : Type} (out : GeomSelect.GridOut G) (c : Nat × Nat) : Bool :=
  out.mask.elim false fun m => m (c.1 - out.slice.r0) (c.2 - out.slice.c0)

/-- The files of a directory: the last one written with a name counts. -/
abbrev Store (N : Type) := List (N × WeightFile)

/-- What the index file records (grid_chunker.py:781-818). -/
structure Index (N : Type) where
  src : List Bounds
  dst : List Bounds
  weights : List N

/-- The loop of `write_chunks` (grid_chunker.py:715-763): for each chunk the slices are recorded and the weights written
to the file named by the counter.  The grid files are not represented. -/
def writeLoop {N : Type} (s : Shapely Box) (o : Options) (src dst : CGrid) (w : Nat × Nat → Nat × Nat → Rat)
    (name : Nat → N) : Nat → List Bounds → Store N → Res (Index N × Store N)
  | _, [], store => .ok (⟨[], [], []⟩, store)
  | ctr, b :: bs, store => do
    let out ← chunkSource s o src dst b
    let f := fileOf w (bounds out.slice) (outMask out) b (fun c => dst.masked c.1 c.2)
    let (ix, store) ← writeLoop s o src dst w name (ctr + 1) bs ((name ctr, f) :: store)
    .ok (⟨bounds out.slice :: ix.src, b :: ix.dst, name ctr :: ix.weights⟩, store)

/-- `write_chunks()` with `genweights` (grid_chunker.py:697-820). -/
def writeChunks {N : Type} (s : Shapely Box) (o : Options) (src dst : CGrid) (sy sx : Nat)
    (w : Nat × Nat → Nat × Nat → Rat) (name : Nat → N) : Res (Index N × Store N) := do
  if sy = 1 && sx = 1 then .error .valueError
  let bs ← dstSlices dst.ny dst.nx sy sx none
  writeLoop s o src dst w name 1 bs []

/-- `write_chunks()` followed by `create_merged_weight_file(path)` (grid_chunker.py:301-392, 697-820). -/
def chunkedWeights {N : Type} [BEq N] (s : Shapely Box) (o : Options) (src dst : CGrid) (sy sx : Nat)
    (w : Nat × Nat → Nat × Nat → Rat) (name : Nat → N) : Res Merged := do
  let (ix, store) ← writeChunks s o src dst sy sx w name
  merge 1 false (.structured (src.ny, src.nx) ix.src) (.structured (dst.ny, dst.nx) ix.dst)
    (ix.weights.map fun n => store.lookup n)

/-! ## The index file from several processes -/

/-- The source slices of the index file (grid_chunker.py:769-779): for each chunk that of the first process that has
one; `n` is the number of chunks on process zero. -/
def collapse {α : Type} (n : Nat) (gathered : List (List (Option α))) : List (Option α) :=
  (List.range n).map fun i => gathered.findSome? fun r => (r[i]?).join

/-- `_gc_create_index_bounds_` (spatial/grid.py:888-924): a missing slice cannot be indexed. -/
def recordBounds {α : Type} : List (Option α) → Res (List α)
  | [] => .ok []
  | none :: _ => .error .typeError
  | some b :: bs => do
    let rest ← recordBounds bs
    .ok (b :: rest)

/-- The bounds the index file gets from the slices the processes hold (grid_chunker.py:769-779, 811-816): the source
slices are collapsed, the destination slices are those of process zero. -/
def indexBounds {α : Type} (src dst : List (List (Option α))) : Res (List α × List α) := do
  let s ← recordBounds (collapse ((src.headD []).length) src)
  let d ← recordBounds (dst.headD [])
  .ok (s, d)

end Ocgis.ChunkFlow
