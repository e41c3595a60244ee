import Verif.Model.Coords
/-!
# Regridding a field

`regrid/base.py`: the ESMF grid made from a grid, whether it is periodic, and what happens to the values and masks of the
data variables.  ESMF itself (the weights it computes) is a parameter.  Numbers are rationals.  The process runs alone
(`vm.size == 1`), so the gathering of flags over processes is the identity.
-/
namespace Ocgis.Regrid
open Ocgis.Coords (Corners diffs mean meshFromCells)

/-- What regridding can raise. -/
inductive Err where
  | regridding | corners | assertion | attribute | value | index | unbound
  deriving DecidableEq, Repr

/-! ## Resolution and periodicity -/

/-- `constants.RESOLUTION_LIMIT` (constants.py:121). -/
def resolutionLimit : Nat := 100

/-- The absolute value of a number. -/
def absR (q : Rat) : Rat := if q < 0 then -q else q

/-- `np.abs(np.diff(np.abs(values)))` (driver/nc.py:362). -/
def absDiffs (vs : List Rat) : List Rat := (diffs (vs.map absR)).map absR

/-- `np.mean`, where the mean of nothing is not a number: `none`. -/
def meanOf (vs : List Rat) : Option Rat := if vs = [] then none else some (mean vs)

/-- `DriverNetcdfCF.array_resolution` of a vector (driver/nc.py:354-371). -/
def resolution1 (vs : List Rat) : Option Rat :=
  if vs.length = 1 then some 0 else meanOf (absDiffs (vs.take resolutionLimit))

/-- `DriverNetcdfCF.array_resolution` along the second axis of a matrix, given by its rows (driver/nc.py:354-371). -/
def resolution2 (rows : List (List Rat)) : Option Rat :=
  if rows.flatten.length = 1 then some 0 else meanOf ((rows.take resolutionLimit).flatMap absDiffs)

/-- `col.min()` and `np.min` of values that are there. -/
def minOf : List Rat → Rat
  | [] => 0
  | [a] => a
  | a :: b :: rest => let m := minOf (b :: rest); if a ≤ m then a else m

/-- `col.max()` and `np.max` of values that are there. -/
def maxOf : List Rat → Rat
  | [] => 0
  | [a] => a
  | a :: b :: rest => let m := maxOf (b :: rest); if m ≤ a then a else m

/-- The smallest and largest column "worked only with unwrapped coordinates" (regrid/base.py:460-468). -/
def columnRange (col : List Rat) : Rat × Rat :=
  if minOf col < 0 then
    let neg := col.filter fun c => decide (c < 0)
    let pos := col.filter fun c => decide (0 ≤ c)
    (if pos = [] then minOf col else minOf pos, if neg = [] then maxOf col else maxOf neg + 360)
  else (minOf col, maxOf col)

/-- Whether `get_periodicity_parameters` declares the grid periodic (regrid/base.py:442-500): `col` are all centre
longitudes, `res` the resolution; comparisons with "not a number" are false. -/
def periodic (col : List Rat) (res : Option Rat) : Bool :=
  match res with
  | none => false
  | some r =>
    let (lo, hi) := columnRange col
    (decide (0 - r ≤ lo) && decide (lo ≤ 0 + r)) && (decide (360 - r ≤ hi) && decide (hi ≤ 360 + r))

/-! ## Grids -/

/-- A grid (spatial/grid.py), as far as regridding sees it.  `x`, `y`, `hidden` and `cells` take a row (latitude) index
and a column (longitude) index, whatever the order of the dimensions in storage, which is `yx`.  The dimensions of the grid
itself are always latitude and longitude (spatial/grid.py:834-852); so are those of its mask, when the library makes it. -/
structure Grid where
  ny : Nat
  nx : Nat
  /-- coordinate matrices are stored as (latitude, longitude) -/
  yx : Bool := true
  /-- the coordinates are vectors -/
  vectorized : Bool := true
  /-- the coordinate system is spherical (`create_crs(ogrid.crs) == Spherical()`) -/
  spherical : Bool := true
  x : Nat → Nat → Rat
  y : Nat → Nat → Rat
  /-- the spatial mask, if there is one -/
  hidden : Option (Nat → Nat → Bool) := none
  /-- the four corners (longitude, latitude) of each cell, if there are bounds -/
  cells : Option (Nat → Nat → Corners (Rat × Rat)) := none

/-- Whether coordinates have latitude first in storage; vectors are expanded to such matrices (spatial/grid.py:726-736, 1312-1325). -/
def Grid.rowsFirst (g : Grid) : Bool := g.vectorized || g.yx

/-- The shape of the coordinate matrices in storage. -/
def Grid.shape (g : Grid) : Nat × Nat := if g.rowsFirst then (g.ny, g.nx) else (g.nx, g.ny)

/-- An array as it is stored, from one that takes a row and a column. -/
def stored {α : Type _} (yx : Bool) (f : Nat → Nat → α) : Nat → Nat → α := fun a b => if yx then f a b else f b a

/-- The centre longitudes as stored (`grid.x.get_value()`), row by row. -/
def Grid.columns (g : Grid) : List (List Rat) :=
  if g.vectorized then [(List.range g.nx).map (g.x 0)]
  else (List.range g.shape.1).map fun a => (List.range g.shape.2).map fun b => stored g.yx g.x a b

/-- `resolution_x` (spatial/base.py:482-489). -/
def Grid.resolutionX (g : Grid) : Option Rat :=
  if g.vectorized then resolution1 ((List.range g.nx).map (g.x 0)) else resolution2 g.columns

/-- Whether the ESMF grid is periodic (regrid/base.py:353). -/
def Grid.periodic (g : Grid) : Bool := Regrid.periodic g.columns.flatten g.resolutionX

/-- An ESMF grid: longitude index first.  `corner` is the array of corners. -/
structure EGrid where
  nx : Nat
  ny : Nat
  periodic : Bool
  x : Nat → Nat → Rat
  y : Nat → Nat → Rat
  usable : Nat → Nat → Bool
  corner : Option (Nat → Nat → Rat × Rat)

/-- The index after `i` of a corner in the longitude direction: in a periodic ESMF grid the last connects to the first. -/
def EGrid.next (e : EGrid) (i : Nat) : Nat := if e.periodic && decide (i + 1 = e.nx) then 0 else i + 1

/-- The four corners ESMF sees for a cell. -/
def EGrid.cell (e : EGrid) (c : Nat → Nat → Rat × Rat) (i j : Nat) : Corners (Rat × Rat) :=
  ⟨c i j, c (e.next i) j, c (e.next i) (j + 1), c i (j + 1)⟩

/-- A mask given as an array in storage order. -/
structure MaskArr where
  rows : Nat
  cols : Nat
  get : Nat → Nat → Bool

/-- The regridding method asked for. -/
inductive Method where
  | auto | conserve | other (n : Nat)
  deriving DecidableEq, Repr

/-- The regridding method ESMF is given; `default` is `None`. -/
inductive RMethod where
  | conserve | default | other (n : Nat)
  deriving DecidableEq, Repr

/-- The mask `create_esmf_grid` works with (regrid/base.py:397-404).  Broadcasting of arrays of length one is not
modelled. -/
def esmfMask (g : Grid) (valueMask : Option MaskArr) : Except Err (Option (Nat → Nat → Bool)) :=
  match valueMask with
  | some v =>
    if (v.rows, v.cols) = (g.ny, g.nx) then .ok (some fun a b => v.get a b || (g.hidden.getD fun _ _ => false) a b)
    else .error .value
  | none => .ok g.hidden

/-- The usable cells: the mask inverted, its axes swapped, put into an array with longitude first
(regrid/base.py:405-410). -/
def esmfUsable (g : Grid) (valueMask : Option MaskArr) : Except Err (Nat → Nat → Bool) :=
  match esmfMask g valueMask with
  | .error e => .error e
  | .ok none => .ok fun _ _ => true
  | .ok (some m) => .ok fun i j => !m j i

/-- The centres (regrid/base.py:379-393).  The dimensions of the grid are always those of latitude and longitude, so the axes of the stored
matrices are swapped in any case. -/
def esmfCentres (g : Grid) (c : Nat → Nat → Rat) : Except Err (Nat → Nat → Rat) :=
  if (g.shape.2, g.shape.1) = (g.nx, g.ny) then .ok fun i j => stored g.rowsFirst c j i else .error .value

/-- The corners (regrid/base.py:412-437).  For a periodic grid the last column of corners is not stored; `EGrid.next` never
asks for it. -/
def esmfCorners (g : Grid) (method : Method) : Except Err (Option (Nat → Nat → Rat × Rat)) :=
  if method = .conserve ∨ (method = .auto ∧ g.cells.isSome) then
    match g.cells with
    | none => .error .attribute
    | some cs =>
      if (g.shape.2, g.shape.1) = (g.nx, g.ny) then
        .ok (some (meshFromCells (0, 0) g.shape.1 g.shape.2 (stored g.rowsFirst cs)))
      else .error .index
  else .ok none

/-- `create_esmf_grid` (regrid/base.py:335-439). -/
def createEsmfGrid (g : Grid) (method : Method) (valueMask : Option MaskArr) : Except Err EGrid :=
  if !g.spherical then .error .assertion
  else
    match esmfCentres g g.x, esmfCentres g g.y with
    | .ok x, .ok y =>
      match esmfUsable g valueMask with
      | .error e => .error e
      | .ok u =>
        match esmfCorners g method with
        | .error e => .error e
        | .ok c => .ok ⟨g.nx, g.ny, g.periodic, x, y, u, c⟩
    | _, _ => .error .value

/-! ## Fields -/

/-- A data variable: values by slice of the extra dimensions, row and column. -/
structure Var where
  name : Nat
  data : Nat → Nat → Nat → Rat
  hidden : Option (Nat → Nat → Nat → Bool) := none
  fill : Rat

/-- A source field: all data variables have the dimensions of the first.  `slices` is the product of the sizes of the extra
dimensions, which come first; `extra` says whether there are any; `yx` is the order of latitude and longitude in the
variables. -/
structure Field where
  grid : Grid
  crsSpherical : Bool := true
  extra : Bool := true
  slices : Nat
  yx : Bool := true
  vars : List Var

/-- The shape of one slice of a data variable in storage. -/
def Field.shape (f : Field) : Nat × Nat := if f.yx then (f.grid.ny, f.grid.nx) else (f.grid.nx, f.grid.ny)

/-- A regridded variable: values and mask by slice, row and column of the destination. -/
structure Out where
  name : Nat
  data : Nat → Nat → Nat → Rat
  hidden : Nat → Nat → Nat → Bool

/-- The options of `regrid_field`. -/
structure Options where
  method : Method := .auto
  valueMask : Option MaskArr := none
  split : Bool := true
  fillValue : Option Rat := none

/-- ESMF: for each cell of the destination, the cells of the source (longitude index, latitude index) it takes values from
and their weights, or that it is unmapped. -/
structure Ext where
  weights : RMethod → EGrid → EGrid → Nat → Nat → Option (List ((Nat × Nat) × Rat))

/-- `check_fields_for_regridding` (regrid/base.py:601-643); both fields have grids. -/
def checkFields (src : Field) (dst : Grid) (dstSpherical : Bool) (m : Method) : Option Err :=
  if !src.crsSpherical || !dstSpherical then some .regridding
  else if m = .conserve ∧ (src.grid.cells.isNone ∨ dst.cells.isNone) then some .corners
  else none

/-- `has_masked_values` of the first variable. -/
def Var.anyHidden (v : Var) (f : Field) : Bool :=
  match v.hidden with
  | none => false
  | some h => (List.range f.slices).any fun k => (List.range f.grid.ny).any fun j => (List.range f.grid.nx).any fun i => h k j i

/-- The mask used for the source: the given one, or that of the first slice of the first variable
(regrid/base.py:553-560). -/
def sourceMask (f : Field) (given : Option MaskArr) : Option MaskArr :=
  match given with
  | some v => some v
  | none =>
    match f.vars with
    | [] => none
    | v :: _ =>
      if v.anyHidden f then
        some ⟨f.shape.1, f.shape.2, stored f.yx ((v.hidden.getD fun _ _ _ => false) 0)⟩
      else none

/-- The values ESMF gets for one slice, longitude first: the dimensions of the first variable reversed
(regrid/base.py:544-547, 577-597). -/
def esmfData (f : Field) (v : Var) (k : Nat) : Nat → Nat → Rat := fun i j => stored f.yx (v.data k) j i

/-- A sum of weighted values. -/
def weighted (ws : List ((Nat × Nat) × Rat)) (val : Nat → Nat → Rat) : Rat :=
  (ws.map fun w => w.2 * val w.1.1 w.1.2).sum

/-- One cell after regridding: unmapped cells keep the fill value (regrid/base.py:759, 787-788). -/
def cellValue (w : Option (List ((Nat × Nat) × Rat))) (fv : Rat) (val : Nat → Nat → Rat) : Rat :=
  match w with
  | none => fv
  | some ws => weighted ws val

/-- `unmapped_mask.all()` for one slice (regrid/base.py:791-794). -/
def allFill (e : EGrid) (fv : Rat) (val : Nat → Nat → Rat) : Bool :=
  (List.range e.nx).all fun i => (List.range e.ny).all fun j => decide (val i j = fv)

/-- The method ESMF is given (regrid/base.py:739-743). -/
def resolve (m : Method) (src dst : EGrid) : RMethod :=
  match m with
  | .auto => if dst.corner.isSome && src.corner.isSome then .conserve else .default
  | .conserve => .conserve
  | .other n => .other n

/-- Whether the loop raises because there is nothing but the fill value: in one of the slices when they are regridded one at
a time, otherwise in all of them together (regrid/base.py:791-798). -/
def nothingMapped (f : Field) (ed : EGrid) (split : Bool) (fv : Rat) (val : Nat → Nat → Nat → Rat) : Bool :=
  if split then (List.range f.slices).any fun k => allFill ed fv (val k)
  else (List.range f.slices).all fun k => allFill ed fv (val k)

/-- One data variable (regrid/base.py:709-825).  With `split`, slices are regridded one at a time, an error is raised as soon
as a slice has nothing but the fill value, and the cells with the fill value are masked; otherwise all slices go at once
and no mask is set.  The result has latitude before longitude, after reversing twice. -/
def regridVar (E : Ext) (m : RMethod) (f : Field) (es ed : EGrid) (split : Bool) (fillValue : Option Rat)
    (v : Var) : Except Err Out :=
  let fv := fillValue.getD v.fill
  let val : Nat → Nat → Nat → Rat := fun k i j => cellValue (E.weights m es ed i j) fv (esmfData f v k)
  if nothingMapped f ed split fv val then .error .regridding
  else .ok ⟨v.name, fun k j i => val k i j, fun k j i => split && decide (val k i j = fv)⟩

/-- All variables in turn; the first error ends the loop. -/
def regridVars (E : Ext) (m : RMethod) (f : Field) (es ed : EGrid) (split : Bool) (fillValue : Option Rat) :
    List Var → Except Err (List Out)
  | [] => .ok []
  | v :: vs =>
    match regridVar E m f es ed split fillValue v with
    | .error e => .error e
    | .ok o =>
      match regridVars E m f es ed split fillValue vs with
      | .error e => .error e
      | .ok os => .ok (o :: os)

/-- `regrid_field` (regrid/base.py:646-839), without weight files: the data variables of the result.  Nothing is split when
there are no extra dimensions (regrid/base.py:690-692).  Values of the wrong shape for the ESMF field are refused
(regrid/base.py:591, 597).  Without data variables the loop does not run and `regrid` is not bound
(regrid/base.py:828-829). -/
def regridField (E : Ext) (src : Field) (dst : Grid) (dstSpherical : Bool) (o : Options) : Except Err (List Out) :=
  match checkFields src dst dstSpherical o.method with
  | some e => .error e
  | none =>
    match createEsmfGrid src.grid o.method (sourceMask src o.valueMask) with
    | .error e => .error e
    | .ok es =>
      if src.vars = [] then .error .unbound
      else if (src.shape.2, src.shape.1) ≠ (src.grid.nx, src.grid.ny) then .error .value
      else
        match createEsmfGrid dst o.method o.valueMask with
        | .error e => .error e
        | .ok ed => regridVars E (resolve o.method es ed) src es ed (o.split && src.extra) o.fillValue src.vars

/-! ## The operation -/

/-- Coordinate systems of the fields around `RegridOperation.execute`: of the result, and of the source and destination
fields afterwards. -/
structure OpCrs (C : Type _) where
  result : C
  source : C
  destination : C
  deriving DecidableEq

/-- `RegridOperation.execute` (regrid/base.py:55-119): the coordinate systems.  Source and destination are transformed to
the spherical one, in place; the result is transformed back, the destination if `revert`, the source never. -/
def execute {C : Type _} [DecidableEq C] (spherical : C) (revert : Bool) (src dst : C) : OpCrs C :=
  let backDst := if dst ≠ spherical then some dst else none
  let backSrc := if src ≠ spherical then some src else none
  ⟨backSrc.getD spherical, spherical, if revert then backDst.getD spherical else spherical⟩

end Ocgis.Regrid
