import Verif.Model.Coords
/-!
# Selecting grid cells by a geometry, and spatial decomposition

Shapely is not modelled: a geometry is a list of parts with their bounds, and the exact test is a parameter.
-/
namespace Ocgis.Select
open Ocgis.Coords (Grid1 diffs mean)

/-- `geom.bounds`, and `box(minx, miny, maxx, maxy)`. -/
structure Box where
  minx : Rat
  miny : Rat
  maxx : Rat
  maxy : Rat
  deriving DecidableEq, Repr

/-- `geom.buffer(b).envelope` of a geometry with these bounds (spatial/grid.py:646). -/
def Box.expand (b : Box) (d : Rat) : Box := ⟨b.minx - d, b.miny - d, b.maxx + d, b.maxy + d⟩

/-- `abs`. -/
def absR (x : Rat) : Rat := if x < 0 then -x else x

/-- `array_resolution(value, axis)` on a coordinate vector (driver/nc.py:354-372); the differences are those of the
absolute values. -/
def arrayResolution (limit : Nat) (v : List Rat) : Rat :=
  if v.length = 1 then 0 else mean ((diffs ((v.take limit).map absR)).map absR)

/-- `grid.resolution` (spatial/base.py:451-470). -/
def resolution (limit : Nat) (g : Grid1) : Res Rat :=
  if g.y.length = 1 ∨ g.x.length = 1 then
    if g.y.length ≠ 1 then .ok (arrayResolution limit g.y)
    else if g.x.length ≠ 1 then .ok (arrayResolution limit g.x)
    else .error .notImplemented
  else .ok ((arrayResolution limit g.y + arrayResolution limit g.x) / 2)

/-- `select` of `get_hint_mask_from_geometry_bounds(grid, bbox, invert=False)` at one cell, for a grid with coordinate
vectors (spatial/grid.py:1254-1267): the centre lies in the closed box. -/
def hint (g : Grid1) (b : Box) (i j : Nat) : Bool :=
  let x := g.x.getD j 0
  let y := g.y.getD i 0
  decide (b.minx ≤ x) && decide (x ≤ b.maxx) && (decide (b.miny ≤ y) && decide (y ≤ b.maxy))

/-- The union of the hints of the parts (spatial/grid.py:644-655). -/
def hintParts (g : Grid1) (parts : List Box) (i j : Nat) : Bool :=
  match parts.map (fun b => hint g b i j) with
  | [] => false
  | h :: rest => rest.foldl (· || ·) h

/-- The geometry of a cell: its rectangle, or its centre when bounds are not used (spatial/grid.py:43-83). -/
def cellBox (g : Grid1) (useBounds : Bool) (i j : Nat) : Box :=
  if useBounds then
    let bx := g.xb.getD j (0, 0)
    let yb := g.yb.getD i (0, 0)
    ⟨min bx.1 bx.2, min yb.1 yb.2, max bx.1 bx.2, max yb.1 yb.2⟩
  else ⟨g.x.getD j 0, g.y.getD i 0, g.x.getD j 0, g.y.getD i 0⟩

/-- The mask after `get_spatial_subset_operation` with no original mask argument, before slicing
(spatial/grid.py:636-690).  `selects` is the exact test of `GeometryProcessor.iter_intersects`
(variable/geom.py:154-185) with its touch rule; cells excluded by the hint or the mask are not tested. -/
def subsetMask (limit : Nat) (g : Grid1) (mask : Nat → Nat → Bool) (useBounds : Bool) (parts : List Box)
    (selects : Box → Bool) : Res (Nat → Nat → Bool) := do
  let r ← resolution limit g
  let buffered := parts.map fun b => b.expand (r * (5 / 4))
  let original : Nat → Nat → Bool := fun i j => mask i j || !hintParts g buffered i j
  .ok fun i j => if original i j then true else !selects (cellBox g useBounds i j)

/-- The touching barrier of `get_hint_mask_from_geometry_bounds` (spatial/grid.py:1240-1252), for a grid with coordinate
vectors: the column loop reads `tx[ii]` with `ii` left at the last row. -/
def touching (g : Grid1) (b : Box) : Res Unit :=
  let tx := g.x.map fun x => decide (x = b.minx) || decide (x = b.maxx)
  let ty := g.y.map fun y => decide (y = b.miny) || decide (y = b.maxy)
  match tx[g.y.length - 1]? with
  | none => .error .indexError
  | some t => if t && ty.any id then .error .noTouching else .ok ()

/-- The touching barrier for a grid with two-dimensional coordinates. -/
def touching2 (x y : List (List Rat)) (b : Box) : Res Unit :=
  let tx := x.map fun row => row.map fun v => decide (v = b.minx) || decide (v = b.maxx)
  let ty := y.map fun row => row.map fun v => decide (v = b.miny) || decide (v = b.maxy)
  if (tx.zip ty).any fun r => (r.1.zip r.2).any fun c => c.1 && c.2 then .error .noTouching else .ok ()

/-! ## Decomposition -/

/-- `np.linspace(a, b, n + 1)`. -/
def linspace (a b : Rat) (n : Nat) : List Rat := (List.range (n + 1)).map fun (i : Nat) => a + (i : Rat) * ((b - a) / (n : Rat))

/-- `create_split_polygons_from_meshgrid_vectors(cols, rows)` (spatial/base.py:714-725). -/
def splitFromVectors (cols rows : List Rat) : List Box :=
  (List.range (rows.length - 1)).flatMap fun r => (List.range (cols.length - 1)).map fun c =>
    ⟨cols.getD c 0, rows.getD r 0, cols.getD (c + 1) 0, rows.getD (r + 1) 0⟩

/-- The four jitter values. -/
structure Jitter where
  j0 : Rat
  j1 : Rat
  j2 : Rat
  j3 : Rat

/-- `create_split_polygons(geom, split_shape, jitter)` (spatial/base.py:704-711). -/
def splitPolygons (b : Box) (nrow ncol : Nat) (j : Jitter) : List Box :=
  splitFromVectors (linspace (b.minx + j.j2) (b.maxx + j.j3) ncol) (linspace (b.miny + j.j0) (b.maxy + j.j1) nrow)

/-- The loop of `iter_spatial_decomposition` (spatial/base.py:785-791), yielding the polygons the object is subset with. -/
def decompositionLoop (yieldIdx : Option Nat) : Nat → List Box → List Box
  | _, [] => []
  | ctr, p :: rest =>
    match yieldIdx with
    | some k => if ctr < k then decompositionLoop yieldIdx (ctr + 1) rest else []
    | none => p :: decompositionLoop yieldIdx (ctr + 1) rest

/-- `iter_spatial_decomposition(sobj, splits, yield_idx=...)` (spatial/base.py:750-792): the extent is buffered by
`SPATIALDECOMP_BUFFER` and the polygons are jittered. -/
def decomposition (extent : Box) (buffer : Rat) (nrow ncol : Nat) (j : Jitter) (yieldIdx : Option Nat) : List Box :=
  decompositionLoop yieldIdx 0 (splitPolygons (extent.expand buffer) nrow ncol j)

end Ocgis.Select
