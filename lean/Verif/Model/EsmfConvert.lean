import Verif.Model.Regrid
import Verif.Model.Masks
/-!
# Fields and grids as ESMF objects and back

`regrid/base.py` and `conv/esmpy.py`: the ESMF field made from a field, the field made from an ESMF field, the grid made from
an ESMF grid, and the converter for `esmpy` output.  ESMF objects hold what is put into them.  The process runs alone.
-/
namespace Ocgis.EsmfConvert
open Ocgis.Array (Arr Var broadcastVariable broadcastScope)
open Ocgis.Regrid (Grid EGrid Method MaskArr createEsmfGrid)
open Ocgis.Coords (Corners cellCorners)

/-- The data types the conversion tells apart (regrid/base.py:245-252). -/
inductive DType where
  | float32 | float64 | other
  deriving DecidableEq, Repr

/-- A variable of a field that is not part of its grid; `isData` says whether it is tagged as a data variable. -/
structure DataVar where
  name : String
  dtype : DType := .float64
  isData : Bool := true
  var : Var Rat

/-- A field with a grid.  `yn` and `xn` are the names of the dimensions of the grid, `maskName` that of its mask variable, `time`
name and length of the dimension of the time variable, if there is one. -/
structure Field where
  grid : Grid
  yn : String
  xn : String
  maskName : String := "ocgis_spatial_mask"
  time : Option (String × Nat) := none
  vars : List DataVar

/-- `field.data_variables` (collection/field.py). -/
def Field.dataVars (f : Field) : List DataVar := f.vars.filter (·.isData)

/-- What `create_esmf_grid` raises (`Verif.Model.Regrid`) as a Python exception. -/
def pyErr : Regrid.Err → PyErr
  | .assertion => .assertionError
  | .attribute => .attributeError
  | .value => .valueError
  | .index => .indexError
  | .unbound => .unboundLocal
  | .regridding => .runtimeError
  | .corners => .runtimeError

/-- The other dimensions of the variable in their order (regrid/base.py:231-234); dimension names of a variable are
unique. -/
def otherDims (f : Field) (names : List String) : List String :=
  names.filter fun d => !([f.xn, f.yn].contains d) && decide (some d ≠ f.time.map (·.1))

/-- `new_order` (regrid/base.py:229-236): longitude, latitude, others, time. -/
def newOrder (f : Field) (names : List String) : List String :=
  [f.xn, f.yn] ++ otherDims f names ++ (f.time.map (·.1)).toList

/-- The size of a dimension of a variable (`target_variable.dimensions_dict[d]`). -/
def dimSize (v : Var Rat) (d : String) : Nat := v.value.shape.getD (v.names.idxOf d) 0

/-- The shape of the ESMF field: that of the ESMF grid and `ndbounds` (regrid/base.py:222-239, 260). -/
def esmfShape (f : Field) (e : EGrid) (v : Var Rat) : List Nat :=
  [e.nx, e.ny] ++ (otherDims f v.names).map (dimSize v) ++ (f.time.map (·.2)).toList

/-- An ESMF field and the information the library attaches to it (regrid/base.py:260-271).  `source` is the field the attached grid
belongs to. -/
structure EField where
  grid : EGrid
  name : Option String
  dtype : DType
  data : Arr Rat
  dimnames : List String
  backref : Option (List String)
  source : Field

/-- Whether corners are used, and the grid expanded in place (regrid/base.py:413-419). -/
def usesCorners (g : Grid) (m : Method) : Bool := decide (m = .conserve) || (decide (m = .auto) && g.cells.isSome)

/-- The grid after an ESMF grid was made from it: expanded if corners were asked for (regrid/base.py:419, spatial/grid.py:1287-1345),
and with a mask if one was given (regrid/base.py:402).  What a failed conversion leaves behind is not modelled. -/
def gridAfter (g : Grid) (m : Method) (vm : Option MaskArr) : Grid :=
  { g with
    vectorized := g.vectorized && !usesCorners g m
    yx := if g.vectorized && usesCorners g m then true else g.yx
    hidden := if vm.isSome && g.hidden.isNone then some fun _ _ => false else g.hidden }

/-- Put another variable in the place of the data variable. -/
def replaceVar (vs : List DataVar) (v : DataVar) : List DataVar := vs.map fun w => if w.name = v.name then v else w

/-- The data of the ESMF field: `efield.data[:] = target_variable.get_value()` inside the broadcast scope
(regrid/base.py:268-269).  Values of another shape are refused; NumPy's broadcasting of axes of length one is not modelled. -/
def fillData (f : Field) (e : EGrid) (v : Var Rat) : Res (Arr Rat) × Var Rat :=
  let order := newOrder f v.names
  let scope := broadcastScope v order fun w => (if w.value.shape = esmfShape f e v then none else some .valueError, w)
  match scope.1 with
  | some err => (.error err, scope.2)
  | none =>
    match broadcastVariable v order with
    | .error err => (.error err, scope.2)
    | .ok w => (.ok w.value, scope.2)

/-- `get_esmf_field_from_ocgis_field(ofield, esmf_field_name, regrid_method, value_mask)` (regrid/base.py:193-273): the ESMF
field, and the field afterwards.  The mask of the variable is not transferred. -/
def toEsmf (f : Field) (name : Option String) (m : Method) (vm : Option MaskArr) : Res EField × Field :=
  match f.dataVars with
  | _ :: _ :: _ => (.error .valueError, f)
  | [] =>
    match createEsmfGrid f.grid m vm with
    | .error err => (.error (pyErr err), f)
    | .ok e =>
      let f' := { f with grid := gridAfter f.grid m vm }
      (.ok ⟨e, name, .float32, ⟨[e.nx, e.ny], fun _ => 0⟩, [f.xn, f.yn], none, f'⟩, f')
  | [v] =>
    match createEsmfGrid f.grid m vm with
    | .error err => (.error (pyErr err), f)
    | .ok e =>
      let f' := { f with grid := gridAfter f.grid m vm }
      if v.dtype = .other then (.error .keyError, f')
      else
        let r := fillData f e v.var
        let f'' := { f' with vars := replaceVar f.vars { v with var := r.2 } }
        match r.1 with
        | .error err => (.error err, f'')
        | .ok data => (.ok ⟨e, some (name.getD v.name), v.dtype, data, newOrder f v.var.names, some v.var.names, f''⟩, f'')

/-! ## Back to a field -/

/-- A variable as the masking of collections sees it. -/
def DataVar.mvar (v : DataVar) : Masks.MVar :=
  { name := v.name, names := v.var.names, shape := v.var.value.shape, mask := v.var.mask.map (·.elem) }

/-- A variable with the mask of another. -/
def DataVar.withMask (v : DataVar) (m : Masks.MVar) : DataVar :=
  { v with var := { v.var with mask := m.mask.map fun e => ⟨m.shape, e⟩ } }

/-- The mask variable of the grid. -/
def Field.maskVar (f : Field) (hidden : Nat → Nat → Bool) : Masks.MVar :=
  { name := f.maskName, names := [f.yn, f.xn], shape := [f.grid.ny, f.grid.nx],
    mask := some fun idx => hidden (idx.getD 0 0) (idx.getD 1 0) }

/-- Cascade the mask of the grid to the variables (spatial/grid.py:1282-1284). -/
def cascadeMask (mask : Masks.MVar) : List DataVar → Res (List DataVar)
  | [] => .ok []
  | v :: vs =>
    match Masks.cascadeOne mask [] false v.mvar with
    | .error e => .error e
    | .ok m =>
      match cascadeMask mask vs with
      | .error e => .error e
      | .ok vs' => .ok (v.withMask m :: vs')

/-- The variable made of the data (regrid/base.py:297-300).  Without dimensions to go back to, the one name is `None`
(variable/base.py, `get_dimension_names(None)`): it cannot be broadcast to. -/
def backVar (e : EField) (name : String) : Res DataVar :=
  match e.backref with
  | none => .error (if (e.grid.nx, e.grid.ny) = (1, 1) then .keyError else .valueError)
  | some names =>
    match broadcastVariable ⟨e.dimnames, e.data, none⟩ names with
    | .error err => .error err
    | .ok w => .ok { name := name, dtype := e.dtype, var := w }

/-- Add the variable to a field which takes all variables of the field of the grid (collection/field.py:879-882, variable/base.py:1860-1877,
regrid/base.py:302-308).  These are the same objects, no longer tagged as data variables.  Their order is not modelled. -/
def addVar (vs : List DataVar) (v : DataVar) : List DataVar :=
  ((vs.map fun w => { w with isData := false }).filter fun w => w.name ≠ v.name) ++ [v]

/-- `get_ocgis_field_from_esmf_field(efield)` (regrid/base.py:280-313) for an ESMF field with its grid attached. -/
def fromEsmf (e : EField) : Res Field :=
  match e.name with
  | none => .ok { e.source with vars := e.source.vars.map fun w => { w with isData := false } }
  | some name =>
    match backVar e name with
    | .error err => .error err
    | .ok v =>
      match e.source.grid.hidden with
      | none => .ok { e.source with vars := addVar e.source.vars v }
      | some h =>
        match cascadeMask (e.source.maskVar h) (addVar e.source.vars v) with
        | .error err => .error err
        | .ok vs => .ok { e.source with vars := vs }

/-- The variables of the source field after the conversion back: those that went into the new field are the same objects. -/
def sourceAfter (e : EField) (back : Field) : List DataVar :=
  e.source.vars.map fun w =>
    if e.name = some w.name then w
    else match back.vars.find? fun b => b.name = w.name with
      | none => w
      | some b => { b with isData := w.isData }

/-! ## Grids -/

/-- An ESMF grid and the information attached to it (regrid/base.py:375-377): the names of the dimensions, and that of the mask
variable in the copy of the dimension map, which is made before a mask is created.  `hasMask`: a mask was added
(regrid/base.py:406-410). -/
structure EsmfGrid where
  grid : EGrid
  yn : String
  xn : String
  hasMask : Bool
  dmapMask : Option String

/-- `create_esmf_grid` (regrid/base.py:335-439) with what it attaches. -/
def toEsmfGrid (g : Grid) (yn xn maskName : String) (m : Method) (vm : Option MaskArr) : Res EsmfGrid :=
  match createEsmfGrid g m vm with
  | .error err => .error (pyErr err)
  | .ok e => .ok ⟨e, yn, xn, g.hidden.isSome || vm.isSome, g.hidden.map fun _ => maskName⟩

/-- A grid made from an ESMF grid: the coordinate variables, their bounds (longitude and latitude of the corner), and the mask
variable the dimension map leads to. -/
structure BackGrid where
  x : Var Rat
  y : Var Rat
  bounds : Option (Var (Rat × Rat))
  mask : Res (Option (Var Bool))

/-- A corner of a cell by its position. -/
def nthCorner {α : Type _} (c : Corners α) (k : Nat) : α :=
  match k with
  | 0 => c.c0
  | 1 => c.c1
  | 2 => c.c2
  | _ => c.c3

/-- The corners with the last column restored from the first when the grid is periodic (regrid/base.py:142-153). -/
def fullCorners (e : EGrid) (c : Nat → Nat → Rat × Rat) : Nat → Nat → Rat × Rat :=
  fun p q => if e.periodic && decide (p = e.nx) then c 0 q else c p q

/-- The corners of cells as an array, longitude first (regrid/base.py:154-160). -/
def cornerVar (e : EsmfGrid) (c : Nat → Nat → Rat × Rat) : Var (Rat × Rat) :=
  ⟨[e.xn, e.yn, "corners"], ⟨[e.grid.nx, e.grid.ny, 4],
    fun idx => nthCorner (cellCorners (fullCorners e.grid c) (idx.getD 0 0) (idx.getD 1 0)) (idx.getD 2 0)⟩, none⟩

/-- Centres as an array, longitude first (regrid/base.py:135-137). -/
def centreVar (e : EsmfGrid) (c : Nat → Nat → Rat) : Var Rat :=
  ⟨[e.xn, e.yn], ⟨[e.grid.nx, e.grid.ny], fun idx => c (idx.getD 0 0) (idx.getD 1 0)⟩, none⟩

/-- The mask of the new grid (regrid/base.py:166-177): the variable is made while the coordinates have longitude first, and always called
`ocgis_spatial_mask` (driver/base.py:722-725, constants.py:197); afterwards it is looked up by the name in the old dimension
map (spatial/base.py:441-449). -/
def backMask (e : EsmfGrid) : Res (Option (Var Bool)) :=
  match e.dmapMask with
  | none => .ok none
  | some n =>
    if e.hasMask && decide (n = "ocgis_spatial_mask") then
      .ok (some ⟨[e.xn, e.yn], ⟨[e.grid.nx, e.grid.ny], fun idx => !e.grid.usable (idx.getD 0 0) (idx.getD 1 0)⟩, none⟩)
    else .error .keyError

/-- `get_ocgis_grid_from_esmf_grid(egrid)` (regrid/base.py:122-190).  The variables are broadcast to latitude first; the mask
is not. -/
def fromEsmfGrid (e : EsmfGrid) : Res BackGrid :=
  match broadcastVariable (centreVar e e.grid.x) [e.yn, e.xn], broadcastVariable (centreVar e e.grid.y) [e.yn, e.xn] with
  | .ok x, .ok y =>
    match e.grid.corner with
    | none => .ok ⟨x, y, none, backMask e⟩
    | some c =>
      match broadcastVariable (cornerVar e c) [e.yn, e.xn, "corners"] with
      | .error err => .error err
      | .ok b => .ok ⟨x, y, some b, backMask e⟩
  | .error err, _ => .error err
  | _, .error err => .error err

/-! ## The converter -/

/-- The default of the converter's `regrid_method` is `True` (conv/esmpy.py:19), which equals the number of the patch method and is
not `'auto'`. -/
def converterMethod : Option Method → Method
  | none => .other 1
  | some m => m

/-- `ESMPyConverter.write` (conv/esmpy.py:47-58): the ESMF field of the first field with a data variable
(collection/spatial.py:169-180), or `None`. -/
def convert (fields : List Field) (name : Option String) (method : Option Method) (vm : Option MaskArr) : Res (Option EField) :=
  match fields.find? fun f => !f.dataVars.isEmpty with
  | none => .ok none
  | some f => (toEsmf f name (converterMethod method) vm).1.map some

/-- What `validate_ops` looks at. -/
structure Ops where
  datasets : Nat
  clip : Bool
  selected : Option Nat
  aggSelection : Bool
  aggregate : Bool

/-- `ESMPyConverter.validate_ops` (conv/esmpy.py:28-45): the parameter complained about, if any. -/
def validateOps (o : Ops) : Option String :=
  if o.datasets > 1 then some "dataset"
  else if o.clip then some "spatial_operation"
  else if (match o.selected with | none => false | some n => !o.aggSelection && decide (n > 1)) then some "select_ugid"
  else if o.aggregate then some "aggregate"
  else none

end Ocgis.EsmfConvert
