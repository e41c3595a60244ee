import Verif.Model.Regrid
import Verif.Spec.Coords

/-! Vocabulary for the statements about regridding. -/

namespace Ocgis.Spec
open Ocgis Ocgis.Regrid Ocgis.Coords

/-- Whether an optional mask hides a cell. -/
def hides (h : Option (Nat → Nat → Bool)) (j i : Nat) : Bool :=
  match h with
  | some m => m j i
  | none => false

/-- Whether a value of a variable is masked. -/
def hidesValue (v : Regrid.Var) (k j i : Nat) : Bool :=
  match v.hidden with
  | some m => m k j i
  | none => false

/-- The ESMF grid has the cells of the grid, longitude first: same centres, and usable are the cells that are not hidden. -/
structure EsmfOf (g : Regrid.Grid) (hidden : Nat → Nat → Bool) (e : EGrid) : Prop where
  nx : e.nx = g.nx
  ny : e.ny = g.ny
  x : ∀ j i, j < g.ny → i < g.nx → e.x i j = g.x j i
  y : ∀ j i, j < g.ny → i < g.nx → e.y i j = g.y j i
  usable : ∀ j i, j < g.ny → i < g.nx → e.usable i j = !hidden j i

/-- The same point on the sphere: latitudes are equal, longitudes up to whole turns. -/
def SamePlace (p q : Rat × Rat) : Prop := p.2 = q.2 ∧ ∃ n : Int, p.1 = q.1 + 360 * (n : Rat)

/-- Cells with the same corners on the sphere. -/
def SameCell (a b : Corners (Rat × Rat)) : Prop :=
  SamePlace a.c0 b.c0 ∧ SamePlace a.c1 b.c1 ∧ SamePlace a.c2 b.c2 ∧ SamePlace a.c3 b.c3

/-- Cells reach around the globe: in each row the last one ends where the first one begins. -/
def Closed (ny nx : Nat) (cs : Nat → Nat → Corners (Rat × Rat)) : Prop :=
  ∀ j, j < ny → SamePlace (cs j 0).c0 (cs j (nx - 1)).c1 ∧ SamePlace (cs j 0).c3 (cs j (nx - 1)).c2

/-- ESMF takes values from usable cells of the source only, and does not map hidden cells of the destination. -/
structure RespectsMasks (E : Regrid.Ext) : Prop where
  source : ∀ m s d i j ws, E.weights m s d i j = some ws → ∀ w ∈ ws,
    w.1.1 < s.nx ∧ w.1.2 < s.ny ∧ s.usable w.1.1 w.1.2 = true
  destination : ∀ m s d i j, d.usable i j = false → E.weights m s d i j = none

/-- All slices of all variables have the same mask. -/
def SameMasks (f : Regrid.Field) (hidden : Nat → Nat → Bool) : Prop :=
  ∀ v ∈ f.vars, ∀ k, k < f.slices → ∀ j i, j < f.grid.ny → i < f.grid.nx → hidesValue v k j i = hidden j i

/-- The first slice of the first variable. -/
def firstMask (f : Regrid.Field) (j i : Nat) : Bool :=
  match f.vars with
  | [] => false
  | v :: _ => hidesValue v 0 j i

/-- Everything is stored with latitude before longitude, as are grids with vectors for coordinates. -/
def LatFirst (f : Regrid.Field) (dst : Regrid.Grid) : Prop :=
  f.yx = true ∧ (f.grid.vectorized || f.grid.yx) = true ∧ (dst.vectorized || dst.yx) = true

/-- The weighted sum of the values of the cells `(longitude index, latitude index)`. -/
def weightedSum (ws : List ((Nat × Nat) × Rat)) (value : Nat → Nat → Rat) : Rat :=
  match ws with
  | [] => 0
  | w :: rest => w.2 * value w.1.2 w.1.1 + weightedSum rest value

/-- An ESMF that averages all usable cells. -/
def averaging : Regrid.Ext where
  weights _ s d i j :=
    let us := ((List.range s.nx).flatMap fun p => (List.range s.ny).map fun q => (p, q)).filter fun c => s.usable c.1 c.2
    if d.usable i j = true ∧ us ≠ [] then some (us.map fun c => (c, 1 / (us.length : Rat))) else none

/-- An ESMF that copies the cell with the same indices. -/
def copying : Regrid.Ext where
  weights _ s d i j :=
    if i < s.nx ∧ j < s.ny ∧ s.usable i j = true ∧ d.usable i j = true then some [((i, j), 1)] else none

/-- A grid of two rows and two columns, the cell in row 0, column 1 hidden. -/
def grid22 : Regrid.Grid where
  ny := 2
  nx := 2
  x _ i := 40 + 10 * (i : Rat)
  y j _ := 10 * (j : Rat)
  hidden := some fun j i => j == 0 && i == 1

/-- Two slices of one variable: the masks hide the cell in row 1, column 0. -/
def field22 : Regrid.Field where
  grid := grid22
  slices := 2
  vars := [⟨7, fun k j i => 100 * (k : Rat) + 10 * (j : Rat) + (i : Rat), some fun _ j i => j == 1 && i == 0, -999⟩]

/-- A row of `n` cells from longitude `west`, one degree wide. -/
def rowCells (west : Rat) : Nat → Nat → Corners (Rat × Rat) := fun _ i =>
  ⟨(west + (i : Rat), 0), (west + (i : Rat) + 1, 0), (west + (i : Rat) + 1, 1), (west + (i : Rat), 1)⟩

/-- The row as a grid. -/
def rowGrid (west : Rat) (n : Nat) : Regrid.Grid where
  ny := 1
  nx := n
  x _ i := west + 1 / 2 + (i : Rat)
  y _ _ := 1 / 2
  cells := some (rowCells west)

/-- The method of the interpolation, when source and destination have bounds or not. -/
def chosen (m : Regrid.Method) (srcBounds dstBounds : Bool) : Regrid.RMethod :=
  match m, srcBounds, dstBounds with
  | .conserve, _, _ => .conserve
  | .other n, _, _ => .other n
  | .auto, true, true => .conserve
  | .auto, _, _ => .default

end Ocgis.Spec
