import Verif.Py
/-!
# Coordinate arithmetic: bounds, corners, wrapping, reordering, expansion

Floating point coordinates are rationals.
-/
namespace Ocgis.Coords

/-- Differences of neighbours (`np.diff`). -/
def diffs : List Rat → List Rat
  | a :: b :: rest => (b - a) :: diffs (b :: rest)
  | _ => []

/-- Midpoints of neighbours: `np.mean(centroids[ii:ii + 2])` (util/helpers.py:238-241). -/
def midpoints : List Rat → List Rat
  | a :: b :: rest => (a + b) / 2 :: midpoints (b :: rest)
  | _ => []

/-- `np.mean`. -/
def mean (xs : List Rat) : Rat := xs.sum / (xs.length : Rat)

/-- `get_bounds_vector_from_centroids(centroids)` (util/helpers.py:224-258), for floating point centroids (an integer
array would truncate the midpoints). -/
def boundsVector (c : List Rat) : Res (List Rat) :=
  if c.length < 2 then .error .valueError
  else
    let mids := midpoints c
    let diff := if mids.length = 1 then (diffs c).headD 0 else mean (diffs mids)
    let withFirst := (mids.headD 0 - diff) :: mids
    .ok (withFirst ++ [withFirst.getLastD 0 + diff])

/-- Pairs of neighbours. -/
def pairs : List Rat → List (Rat × Rat)
  | a :: b :: rest => (a, b) :: pairs (b :: rest)
  | _ => []

/-- `get_bounds_from_1d(centroids)` (util/helpers.py:195-221): row `ii` is `mids[ii], mids[ii + 1]`. -/
def boundsFrom1d (c : List Rat) : Res (List (Rat × Rat)) := do
  let mids ← boundsVector c
  .ok (pairs mids)

/-! ## Corners -/

/-- The four corners of a cell, in the order of the last axis. -/
structure Corners (α : Type _) where
  c0 : α
  c1 : α
  c2 : α
  c3 : α
  deriving DecidableEq, Repr

/-- `create_ocgis_corners_from_esmf_corners(ecorners)` (util/helpers.py:313-332): the corners of cell `ii, jj` of a mesh. -/
def cellCorners {α : Type _} (mesh : Nat → Nat → α) (i j : Nat) : Corners α :=
  ⟨mesh i j, mesh i (j + 1), mesh (i + 1) (j + 1), mesh (i + 1) j⟩

/-- `arr[p, q] = v`. -/
def put {α : Type _} (fill : Nat → Nat → α) (p q : Nat) (v : α) : Nat → Nat → α :=
  fun i j => if i = p ∧ j = q then v else fill i j

/-- One iteration of the loop of `get_esmf_corners_from_ocgis_corners` (util/helpers.py:615-620): `ref` is the block
`fill[jj:jj+2, ii:ii+2]`. -/
def putCell {α : Type _} (cells : Nat → Nat → Corners α) (fill : Nat → Nat → α) (ij : Nat × Nat) : Nat → Nat → α :=
  let c := cells ij.1 ij.2
  put (put (put (put fill ij.2 ij.1 c.c0) (ij.2 + 1) ij.1 c.c1) (ij.2 + 1) (ij.1 + 1) c.c2) ij.2 (ij.1 + 1) c.c3

/-- `itertools.product(range(m), range(n))`. -/
def cellIndices (m n : Nat) : List (Nat × Nat) := (List.range m).flatMap fun i => (List.range n).map fun j => (i, j)

/-- `get_esmf_corners_from_ocgis_corners(ocorners)` for `m` by `n` cells (util/helpers.py:596-621); the result has shape
`(n + 1, m + 1)` and starts as `zero`. -/
def meshFromCells {α : Type _} (zero : α) (m n : Nat) (cells : Nat → Nat → Corners α) : Nat → Nat → α :=
  (cellIndices m n).foldl (putCell cells) (fun _ _ => zero)

/-! ## Wrapping -/

/-- `CoordinateArrayWrapper.wrap` on one element (spatial/wrap.py:54-72). -/
def wrap1 (wrapAxis x : Rat) : Rat := if x > wrapAxis then x - 360 else x

/-- `CoordinateArrayWrapper.unwrap` on one element (spatial/wrap.py:74-82). -/
def unwrap1 (centerAxis x : Rat) : Rat := if x < centerAxis then x + 360 else x

/-- On arrays; the defaults are 180 and 0 (spatial/wrap.py:20-28). -/
def wrap (xs : List Rat) : List Rat := xs.map (wrap1 180)
def unwrap (xs : List Rat) : List Rat := xs.map (unwrap1 0)

/-- `GeometryWrapper.wrap` on points (spatial/wrap.py:222-240): the axis is the literal 180, not `wrap_axis`. -/
def wrapPoint (_wrapAxis : Rat) (p : Rat × Rat) : Rat × Rat := if p.1 > 180 then (p.1 - 360, p.2) else p

/-- `GeometryWrapper._unwrap_point_` (spatial/wrap.py:255-276). -/
def unwrapPoint (centerAxis : Rat) (p : Rat × Rat) : Rat × Rat := if p.1 < centerAxis then (p.1 + 360, p.2) else p

/-! ## Reordering -/

/-- The split index of a row: its first negative element (spatial/grid.py:769-774).  Storing `None` in an integer
array is a `TypeError`. -/
def splitIndex (row : List Rat) : Res Nat :=
  match row.findIdx? (fun x => decide (x < 0)) with
  | some k => .ok k
  | none => .error .typeError

/-- One line in `reorder_array` (spatial/grid.py:1375-1384): `view[0:offset] = orig[split:]`,
`view[offset:] = orig[0:split]`; the middle step still has the old tail. -/
def reorderLine {α : Type _} (split : Nat) (line : List α) : List α :=
  let offset := line.length - split
  let view := line.drop split ++ line.drop offset
  view.take offset ++ line.take split

/-- `reorder_array` (spatial/grid.py:1351-1384): the lines along the reorder dimension, each with its index along the
varying dimension; the loop visits every line once. -/
def reorderArray {α : Type _} (splits : List Nat) (lines : List (Nat × List α)) : Res (List (Nat × List α)) :=
  lines.mapM fun l =>
    match splits[l.1]? with
    | some s => .ok (l.1, reorderLine s l.2)
    | none => .error .indexError

/-- `Grid.reorder` on a grid with two-dimensional coordinates (spatial/grid.py:750-792): the split indices come from the
longitude rows; every array over both dimensions is reordered with its mask.  An array is given by its lines, each
element with its mask. -/
def reorder {α : Type _} (x : List (List Rat)) (arrays : List (List (Nat × List α))) :
    Res (List (List Rat) × List (List (Nat × List α))) := do
  let splits ← x.mapM splitIndex
  let xs ← reorderArray splits ((List.range x.length).zip x)
  let arrays' ← arrays.mapM (reorderArray splits)
  .ok (xs.map (·.2), arrays')

/-- `Grid.reorder` on a grid with coordinate vectors: the one longitude row is split, and all rows of the data use its
split index (spatial/grid.py:765-781). -/
def reorderVectorized {α : Type _} (x : List Rat) (nrow : Nat) (arrays : List (List (Nat × List α))) :
    Res (List Rat × List (List (Nat × List α))) := do
  let s ← splitIndex x
  let arrays' ← arrays.mapM (reorderArray (List.replicate nrow s))
  .ok (reorderLine s x, arrays')

/-! ## Expanding a rectilinear grid -/

/-- A rectilinear grid: coordinate vectors and their bounds. -/
structure Grid1 where
  x : List Rat
  y : List Rat
  xb : List (Rat × Rat)
  yb : List (Rat × Rat)

/-- `expand_grid` (spatial/grid.py:1287-1348): two-dimensional coordinates (`np.meshgrid`) ... -/
def expandX (g : Grid1) : List (List Rat) := g.y.map fun _ => g.x
def expandY (g : Grid1) : List (List Rat) := g.y.map fun v => g.x.map fun _ => v

/-- ... and corner coordinates (lines 1331-1340). -/
def expandXb (g : Grid1) : List (List (Corners Rat)) := g.yb.map fun _ => g.xb.map fun b => ⟨b.1, b.2, b.2, b.1⟩
def expandYb (g : Grid1) : List (List (Corners Rat)) := g.yb.map fun b => g.xb.map fun _ => ⟨b.1, b.1, b.2, b.2⟩

end Ocgis.Coords
