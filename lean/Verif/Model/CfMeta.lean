import Verif.Py
/-!
# Interpreting the metadata of a netCDF file

`create_dimension_map_entry` (driver/nc.py:743-800), `AbstractDriverNetcdfCF` and `DriverNetcdfCF` (driver/nc.py:280-445) and
`update_dimensions_from_metadata` (driver/dimension_map.py:576-589).  Coordinate systems are left out, except for whether the file has a
rotated pole that is to be replaced by longitudes and latitudes.  Attributes that are not text are left out.
-/
namespace Ocgis.CfMeta
open Ocgis

/-- The metadata of a variable.  `attrs` may be missing. -/
structure VarMeta where
  name : String
  dims : List String
  attrs : Option (List (String × String)) := some []
  deriving DecidableEq, Repr

/-- The variables of a group by their keys. -/
abbrev Vars := List (String × VarMeta)

/-- The axes: realization, time, level, y and x. -/
inductive Axis where
  | R | T | Z | Y | X
  deriving DecidableEq, Repr

/-- The value of the attribute `axis` (nc.py:287, 377). -/
def Axis.text : Axis → String
  | .R => "R" | .T => "T" | .Z => "Z" | .Y => "Y" | .X => "X"

/-- The default names of coordinate variables (constants.py:436-454). -/
def defaultNames : Axis → List String
  | .R => []
  | .T => ["time"]
  | .Z => ["z", "zc", "level", "lvl", "height"]
  | .Y => ["y", "yc", "latitude", "lat"]
  | .X => ["x", "xc", "longitude", "lon"]

/-- An entry of a dimension map: the variable, its dimensions and its bounds. -/
structure Entry where
  coord : String
  dims : List String
  bounds : Option String
  deriving DecidableEq, Repr

/-- `variable.get('attrs', {}).get(attr)` (nc.py:766-767). -/
def attrOf (v : VarMeta) (attr : String) : Option String := (v.attrs.getD []).lookup attr

/-- The variables with the attribute value; those without dimensions are passed over (nc.py:764-771). -/
def marked (attr value : String) (vars : Vars) : List String :=
  vars.filterMap fun kv => if attrOf kv.2 attr = some value ∧ kv.2.dims ≠ [] then some kv.2.name else none

/-- The variables with default names (nc.py:773-778). -/
def named (axis : Axis) (vars : Vars) : List String :=
  (defaultNames axis).filterMap fun n => (vars.lookup n).map VarMeta.name

/-- The dimensions of an entry (nc.py:782-790). -/
def repDims (strict : Bool) (axis : Axis) (dims : List String) : List String :=
  if strict then dims
  else
    match axis, dims with
    | .Y, d :: _ :: _ => [d]
    | .X, _ :: d :: _ => [d]
    | _, _ => dims

/-- `create_dimension_map_entry` (nc.py:743-800): variable and dimensions.  The name of the variable is used as its key. -/
def axisEntry (strict : Bool) (attr value : String) (axis : Axis) (vars : Vars) : Res (Option (String × List String)) :=
  match (if strict = false ∧ marked attr value vars = [] then named axis vars else marked attr value vars) with
  | [n] =>
    match vars.lookup n with
    | none => .error .keyError
    | some v => .ok (some (n, repDims strict axis v.dims))
  | _ => .ok none

/-- The bounds of a coordinate variable (nc.py:317-330, util/helpers.py:182-192).  A variable that does not exist is forgotten, with a
warning. -/
def boundsOf (axis : Axis) (v : VarMeta) (vars : Vars) : Res (Option String) :=
  if axis = .R then .ok none
  else
    match v.attrs with
    | none => .error .keyError
    | some as =>
      match as.lookup "bounds", (if axis = .T then as.lookup "climatology" else none) with
      | some _, some _ => .error .valueError
      | some b, none => .ok (if (vars.lookup b).isSome then some b else none)
      | none, some b => .ok (if (vars.lookup b).isSome then some b else none)
      | none, none => .ok none

/-- An entry with its bounds (nc.py:306-332). -/
def fullEntry (strict : Bool) (attr value : String) (axis : Axis) (vars : Vars) : Res (Option Entry) :=
  match axisEntry strict attr value axis vars with
  | .error e => .error e
  | .ok none => .ok none
  | .ok (some (n, dims)) =>
    match vars.lookup n with
    | none => .error .keyError
    | some v =>
      match boundsOf axis v vars with
      | .error e => .error e
      | .ok b => .ok (some ⟨n, dims, b⟩)

/-- A dimension map. -/
abbrev Map := Axis → Option Entry

/-- The replacement for a rotated axis (nc.py:388-396). -/
def swapped (strict rotated : Bool) (axis : Axis) (vars : Vars) : Res (Option Entry) :=
  if rotated then
    match axis with
    | .X => fullEntry strict "standard_name" "longitude" .X vars
    | .Y => fullEntry strict "standard_name" "latitude" .Y vars
    | _ => .ok none
  else .ok none

/-- The entry of an axis in the end. -/
def finalEntry (strict rotated : Bool) (vars : Vars) (axis : Axis) : Res (Option Entry) :=
  match fullEntry strict "axis" axis.text axis vars with
  | .error e => .error e
  | .ok e =>
    match swapped strict rotated axis vars with
    | .error e => .error e
    | .ok none => .ok e
    | .ok (some e') => .ok (some e')

/-- `create_dimension_map` (nc.py:282-304, 373-399).  `rotated`: the file has a rotated pole and spherical coordinates, and the latter
are wanted.  Which error is raised if there are several is left out. -/
def createMap (strict rotated : Bool) (vars : Vars) : Res Map :=
  match finalEntry strict rotated vars .R, finalEntry strict rotated vars .T, finalEntry strict rotated vars .Z,
    finalEntry strict rotated vars .Y, finalEntry strict rotated vars .X with
  | .ok r, .ok t, .ok z, .ok y, .ok x => .ok fun a => match a with
    | .R => r | .T => t | .Z => z | .Y => y | .X => x
  | .error e, _, _, _, _ => .error e
  | _, .error e, _, _, _ => .error e
  | _, _, .error e, _, _ => .error e
  | _, _, _, .error e, _ => .error e
  | _, _, _, _, .error e => .error e

/-- The spatial mask (nc.py:296-302): the first variable with that role. -/
def spatialMask (vars : Vars) : Option String :=
  (vars.find? fun kv => decide (attrOf kv.2 "ocgis_role" = some "spatial_mask")).map Prod.fst

/-- The elements of a list without repetitions. -/
def distinct : List String → List String
  | [] => []
  | a :: l => if l.contains a then distinct l else a :: distinct l

/-- `get_data_variable_names` (nc.py:401-422): the variables that share exactly three dimensions with time, x and y. -/
def dataVariables (m : Map) (vars : Vars) : List String :=
  match m .T, m .X, m .Y with
  | some t, some x, some y =>
    (vars.filter fun kv => decide (((distinct (t.dims ++ x.dims ++ y.dims)).filter kv.2.dims.contains).length = 3)).map Prod.fst
  | _, _, _ => []

/-- `get_distributed_dimension_name` (nc.py:425-445): the longer of the dimensions of x and y, or that of x. -/
def distributedName (esmf : Bool) (m : Map) (sizes : List (String × Nat)) : Res (Option String) :=
  match m .X, m .Y with
  | some x, some y =>
    match x.dims with
    | [] => .error .indexError
    | dx :: _ =>
      if esmf then .ok (some dx)
      else
        match y.dims with
        | [] => .error .indexError
        | dy :: _ =>
          match sizes.lookup dx, sizes.lookup dy with
          | some nx, some ny => .ok (some (if nx < ny then dy else dx))
          | _, _ => .error .keyError
  | _, _ => .ok none

/-- `update_dimensions_from_metadata` (dimension_map.py:576-589): dimensions that are missing are taken from the metadata.  The variable
is set anew, which sets its bounds to `None` (dimension_map.py:509-527, 555). -/
def updateDims (vars : Vars) (m : Map) : Map := fun a =>
  match m a with
  | none => none
  | some e =>
    if e.dims = [] then
      match vars.lookup e.coord with
      | some v => if v.dims = [] then some e else some ⟨e.coord, v.dims, none⟩
      | none => some e
    else some e

end Ocgis.CfMeta
