import Verif.Py
/-!
# The geometries of a structured grid

Models `get_point()`, `get_polygon()` and `get_abstraction_geometry()` (spatial/grid.py:477-491, 526-530, 1181-1202), the geometries they
are made from (spatial/grid.py:31-100), the abstraction of a grid (spatial/grid.py:118-136, 816-827), slices (spatial/grid.py:240-264) and
assignment to slices (spatial/grid.py:266-289, variable/base.py:339-370).  Coordinates are rational numbers; an array is a function with
the sizes kept apart.  Coordinates have no masks of their own, and the mask of a grid is that of its mask variable.  What an exception
leaves behind is not modelled, nor is the z-coordinate.
-/
namespace Ocgis.GridCells

/-- A geometry: a point, a `box(minx, miny, maxx, maxy)`, or a polygon given by the coordinates of its ring. -/
inductive Geom
  | point (x y : Rat)
  | box (minx miny maxx maxy : Rat)
  | ring (corners : List (Rat × Rat))
  deriving DecidableEq

/-- The spatial abstractions of a structured grid. -/
inductive Abst
  | point
  | polygon
  deriving DecidableEq

/-- A coordinate variable: its values and those of its bounds, if it has them. -/
structure Axis (κ : Type) where
  value : κ → Rat
  bounds : Option (κ → List Rat)

/-- One-dimensional (`is_vectorized`, spatial/grid.py:349-362) or two-dimensional coordinates. -/
inductive Coords
  | vector (x y : Axis Nat)
  | matrix (x y : Axis (Nat × Nat))

/-- A structured grid. `overload` is the abstraction in the dimension map; none is `auto`. -/
structure CGrid where
  rows : Nat
  cols : Nat
  coords : Coords
  mask : Option (Nat → Nat → Bool) := none
  overload : Option Abst := none
  empty : Bool := false

/-- `has_bounds` (spatial/grid.py:334-341): the y-coordinate decides. -/
def CGrid.hasBounds (g : CGrid) : Bool :=
  match g.coords with
  | .vector _ y => y.bounds.isSome
  | .matrix _ y => y.bounds.isSome

/-- `abstraction` (spatial/grid.py:128-131, 816-821). -/
def CGrid.abstraction (g : CGrid) : Abst :=
  match g.overload with
  | some a => a
  | none => if g.hasBounds then .polygon else .point

/-- `abstractions_available` (spatial/grid.py:823-827). -/
def CGrid.available (g : CGrid) : List Abst := if g.hasBounds then [.point, .polygon] else [.point]

/-- `itertools.product(range(rows), range(cols))`. -/
def product (rows cols : Nat) : List (Nat × Nat) := (List.range rows).flatMap fun i => (List.range cols).map fun j => (i, j)

/-- `np.min` of an array that is not empty. -/
def npMin : List Rat → Res Rat
  | [] => .error .valueError
  | a :: l => .ok (l.foldl min a)

/-- `np.max` of an array that is not empty. -/
def npMax : List Rat → Res Rat
  | [] => .error .valueError
  | a :: l => .ok (l.foldl max a)

/-- `Point(x, y)` of a cell (spatial/grid.py:59-65). -/
def center (c : Coords) (i j : Nat) : Geom :=
  match c with
  | .vector x y => .point (x.value j) (y.value i)
  | .matrix x y => .point (x.value (i, j)) (y.value (i, j))

/-- `box(...)` of a cell (spatial/grid.py:79-81). -/
def boxOf (xs ys : List Rat) : Res Geom :=
  match npMin xs, npMax xs, npMin ys, npMax ys with
  | .ok a, .ok b, .ok c, .ok d => .ok (.box a c b d)
  | _, _, _, _ => .error .valueError

/-- `Polygon(coords)` of a cell (spatial/grid.py:85-94); a ring needs three corners. -/
def ringOf (xs ys : List Rat) : Res Geom :=
  if xs.length ≠ ys.length then .error .valueError
  else if xs.length < 3 then .error .valueError
  else .ok (.ring (xs.zip ys))

/-- The loop over cells (spatial/grid.py:55-66, 75-82, 87-95). -/
def loop (hint : Option (Nat → Nat → Bool)) (make : Nat → Nat → Res Geom) : List (Nat × Nat) → Res (List ((Nat × Nat) × Option Geom))
  | [] => .ok []
  | (i, j) :: r =>
    match (if (hint.getD fun _ _ => false) i j then .ok none else (make i j).map some : Res (Option Geom)) with
    | .error e => .error e
    | .ok c => match loop hint make r with
      | .error e => .error e
      | .ok l => .ok (((i, j), c) :: l)

/-- `get_geometry_iterable()` (spatial/grid.py:43-100). -/
def geometries (g : CGrid) (hint : Option (Nat → Nat → Bool)) (useBounds : Bool) : Res (List ((Nat × Nat) × Option Geom)) :=
  match (if useBounds then g.abstraction else .point) with
  | .point => loop hint (fun i j => .ok (center g.coords i j)) (product g.rows g.cols)
  | .polygon =>
    if g.hasBounds then match g.coords with
      | .vector x y => match x.bounds, y.bounds with
        | some xb, some yb => loop hint (fun i j => boxOf (xb j) (yb i)) (product g.rows g.cols)
        | _, _ => .error .attributeError
      | .matrix x y => match x.bounds, y.bounds with
        | some xb, some yb => loop hint (fun i j => ringOf (xb (i, j)) (yb (i, j))) (product g.rows g.cols)
        | _, _ => .error .attributeError
    else .error .runtimeError

/-- A geometry variable: its name, values and mask. An element that was not filled is the number zero of `np.zeros`. -/
structure GeomVar where
  name : String
  value : Option (Nat → Nat → Option Geom)
  mask : Option (Nat → Nat → Bool)

/-- The loop that fills the array (spatial/grid.py:1192-1195). -/
def fill : List ((Nat × Nat) × Option Geom) → (Nat → Nat → Option Geom) → Nat → Nat → Option Geom
  | [], f => f
  | ((i, j), some c) :: r, f => fill r fun a b => if a = i ∧ b = j then some c else f a b
  | (_, none) :: r, f => fill r f

/-- `get_geometry_variable(grid, mask, use_bounds)` (spatial/grid.py:1181-1202). -/
def geometryVariable (g : CGrid) (mask : Option (Nat → Nat → Bool)) (useBounds : Bool) : Res GeomVar :=
  let name := if g.abstraction = .point then "ocgis_point" else "ocgis_polygon"
  if g.empty then .ok ⟨name, none, none⟩
  else
    let mask := match mask with
      | none => g.mask
      | some m => some m
    match geometries g mask useBounds with
    | .error e => .error e
    | .ok l => .ok ⟨name, some (fill l fun _ _ => none), mask⟩

/-- `get_point(mask)` (spatial/grid.py:526-527). -/
def getPoint (g : CGrid) (mask : Option (Nat → Nat → Bool) := none) : Res GeomVar := geometryVariable g mask false

/-- `get_polygon(mask)` (spatial/grid.py:529-530). -/
def getPolygon (g : CGrid) (mask : Option (Nat → Nat → Bool) := none) : Res GeomVar := geometryVariable g mask true

/-- `get_abstraction_geometry()` (spatial/grid.py:477-491). -/
def getAbstraction (g : CGrid) : Res GeomVar :=
  match g.abstraction with
  | .point => getPoint g
  | .polygon => getPolygon g

/-- A coordinate at shifted indices. -/
def Axis.shift {κ : Type} (f : κ → κ) (a : Axis κ) : Axis κ := ⟨fun k => a.value (f k), a.bounds.map fun b k => b (f k)⟩

/-- `grid[r0:r0 + rows, c0:c0 + cols]` (spatial/grid.py:240-264) with a slice inside the grid and two different dimensions. -/
def CGrid.slice (g : CGrid) (r0 rows c0 cols : Nat) : CGrid :=
  { g with
    rows := rows
    cols := cols
    coords := match g.coords with
      | .vector x y => .vector (x.shift (c0 + ·)) (y.shift (r0 + ·))
      | .matrix x y => .matrix (x.shift fun k => (r0 + k.1, c0 + k.2)) (y.shift fun k => (r0 + k.1, c0 + k.2))
    mask := g.mask.map fun m i j => m (r0 + i) (c0 + j) }

/-- The same element of a geometry variable after slicing. -/
def GeomVar.slice (v : GeomVar) (r0 c0 : Nat) : GeomVar :=
  ⟨v.name, v.value.map fun f i j => f (r0 + i) (c0 + j), v.mask.map fun m i j => m (r0 + i) (c0 + j)⟩

/-- `variable[slc] = other` (variable/base.py:339-370) for variables without masks: `back` gives the index in `other`, if it is inside. -/
def Axis.assign {κ : Type} (a : Axis κ) (back : κ → Option κ) (b : Axis κ) : Res (Axis κ) :=
  let value := fun k => match back k with
    | some k' => b.value k'
    | none => a.value k
  match a.bounds, b.bounds with
  | none, _ => .ok ⟨value, none⟩
  | some _, none => .error .attributeError
  | some f, some h => .ok ⟨value, some fun k => match back k with
    | some k' => h k'
    | none => f k⟩

/-- The index in a slice that begins at `s` and has `n` elements. -/
def back1 (s n k : Nat) : Option Nat := if s ≤ k ∧ k < s + n then some (k - s) else none

/-- The same with two indices. -/
def back2 (r0 rows c0 cols : Nat) (k : Nat × Nat) : Option (Nat × Nat) :=
  match back1 r0 rows k.1, back1 c0 cols k.2 with
  | some i, some j => some (i, j)
  | _, _ => none

/-- `current_mask = self.get_mask(create=True); current_mask[slc] = new_mask` (spatial/grid.py:285-289). -/
def assignMask (g h : CGrid) (r0 c0 : Nat) (m : Nat → Nat → Bool) (i j : Nat) : Bool :=
  match back2 r0 h.rows c0 h.cols (i, j) with
  | some k => m k.1 k.2
  | none => (g.mask.getD fun _ _ => false) i j

/-- `grid[r0:r0 + other.rows, c0:c0 + other.cols] = other` (spatial/grid.py:266-289) for grids of the same kind and a slice inside the
grid; grids of different kinds are refused here. -/
def CGrid.assign (g : CGrid) (r0 c0 : Nat) (h : CGrid) : Res CGrid :=
  let coords : Res Coords := match g.coords, h.coords with
    | .vector x y, .vector x' y' => match x.assign (back1 c0 h.cols) x', y.assign (back1 r0 h.rows) y' with
      | .ok a, .ok b => .ok (.vector a b)
      | .error e, _ => .error e
      | _, .error e => .error e
    | .matrix x y, .matrix x' y' => match x.assign (back2 r0 h.rows c0 h.cols) x', y.assign (back2 r0 h.rows c0 h.cols) y' with
      | .ok a, .ok b => .ok (.matrix a b)
      | .error e, _ => .error e
      | _, .error e => .error e
    | _, _ => .error .valueError
  match coords with
  | .error e => .error e
  | .ok c => .ok { g with
    coords := c
    mask := match h.mask with
      | none => g.mask
      | some m => some (assignMask g h r0 c0 m) }

end Ocgis.GridCells
