import Verif.Py
/-!
# Coordinate systems of files and fields

`get_crs_variable` (driver/nc.py:700-740), the classes for CF grid mappings (variable/crs.py:885-1180), the coordinate system of a
field (driver/base.py:262-284, collection/field.py:797-815), its transformation (spatial/base.py:567-609) and writing
(variable/crs.py:593-630, driver/nc.py:476-509).

Numbers are whole numbers; nothing is computed from them.  GDAL and PROJ.4 are functions that are not looked into (`Gdal`).  The key
of a variable is its name.  Cartesian and tripole systems and angular units are left out.
-/
namespace Ocgis.CrsMeta
open Ocgis

/-- The value of an attribute: text, a number, an array of numbers or `None`. -/
inductive Val where
  | text (s : String)
  | num (n : Int)
  | nums (l : List Int)
  | none
  deriving DecidableEq, Repr

/-- Attributes, and dictionaries of PROJ.4 parameters. -/
abbrev Attrs := List (String × Val)

/-- The variables of a file with their attributes. -/
abbrev Vars := List (String × Attrs)

/-- The classes for grid mappings of the CF conventions (crs.py:1031-1180), in the order of `itersubclasses`. -/
inductive Kind where
  | spherical | albers | lambert | polar | oblique | rotated
  deriving DecidableEq, Repr

/-- The order in which the classes are tried (nc.py:708). -/
def kinds : List Kind := [.spherical, .albers, .lambert, .polar, .oblique, .rotated]

/-- `grid_mapping_name` of a class. -/
def gmName : Kind → String
  | .spherical => "latitude_longitude"
  | .albers => "albers_conical_equal_area"
  | .lambert => "lambert_conformal_conic"
  | .polar => "polar_stereographic"
  | .oblique => "transverse_mercator"
  | .rotated => "rotated_latitude_longitude"

/-- `get_fuzzy_names` (crs.py:957-962, 1140). -/
def fuzzyNames (k : Kind) : List String :=
  gmName k :: (if k = .rotated then ["rotated_pole", "rotated_lat_lon"] else [])

/-- `proj_name`. -/
def projName : Kind → String
  | .spherical => "longlat"
  | .albers => "aea"
  | .lambert => "lcc"
  | .polar => "stere"
  | .oblique => "omerc"
  | .rotated => "omerc"

/-- `map_parameters` (crs.py:1074-1078, 1085-1090, 1102-1107, 1119-1124, 1137). -/
def mapParameters : Kind → List (String × String)
  | .spherical => []
  | .albers => [("standard_parallel", "lat_{0}"), ("longitude_of_central_meridian", "lon_0"),
      ("latitude_of_projection_origin", "lat_0"), ("false_easting", "x_0"), ("false_northing", "y_0")]
  | .lambert => [("standard_parallel", "lat_{0}"), ("longitude_of_central_meridian", "lon_0"),
      ("latitude_of_projection_origin", "lat_0"), ("false_easting", "x_0"), ("false_northing", "y_0"), ("units", "units")]
  | .polar => [("standard_parallel", "lat_ts"), ("latitude_of_projection_origin", "lat_0"),
      ("straight_vertical_longitude_from_pole", "lon_0"), ("false_easting", "x_0"), ("false_northing", "y_0"),
      ("scale_factor", "k_0")]
  | .oblique => [("latitude_of_projection_origin", "lat_0"), ("longitude_of_central_meridian", "lonc"),
      ("scale_factor_at_central_meridian", "k_0"), ("false_easting", "x_0"), ("false_northing", "y_0"), ("alpha", "alpha")]
  | .rotated => [("grid_north_pole_longitude", ""), ("grid_north_pole_latitude", "")]

/-- `map_parameters_defaults` (crs.py:1091-1092). -/
def mapDefaults : Kind → Attrs
  | .lambert => [("false_easting", .num 0), ("false_northing", .num 0)]
  | _ => []

/-- The keywords added by the constructors (crs.py:1111-1113, 1128-1130). -/
def withExtras (k : Kind) (params : Attrs) : Attrs :=
  match k with
  | .polar => if (params.lookup "scale_factor").isNone then params ++ [("scale_factor", .num 1)] else params
  | .oblique => if (params.lookup "alpha").isNone then params ++ [("alpha", .num 360)] else params
  | _ => params

/-- `format_standard_parallel` (crs.py:944-955). -/
def standardParallels : Val → Attrs
  | .nums l => l.zipIdx.map fun vi => ("lat_" ++ toString (vi.2 + 1), .num vi.1)
  | v => [("lat_1", v)]

/-- The PROJ.4 parameters for one CF parameter (crs.py:917-926).  The parameters of the rotated pole have the key `None`, which is
dropped when the dictionary is converted to text. -/
def projEntry (k : Kind) (params : Attrs) (cf pk : String) : Res Attrs :=
  match params.lookup cf with
  | some v =>
    if pk = "lat_{0}" then .ok (standardParallels v)
    else if pk = "" then .ok []
    else .ok [(pk, v)]
  | none =>
    if pk = "lat_{0}" then .error .keyError
    else match (mapDefaults k).lookup cf with
      | some v => .ok [(pk, v)]
      | none => .error .keyError

/-- The PROJ.4 parameters for all CF parameters. -/
def projEntries (k : Kind) (params : Attrs) : List (String × String) → Res Attrs
  | [] => .ok []
  | (cf, pk) :: rest =>
    match projEntry k params cf pk with
    | .error e => .error e
    | .ok a =>
      match projEntries k params rest with
      | .error e => .error e
      | .ok b => .ok (a ++ b)

/-- The class of a coordinate system: one for a grid mapping of the CF conventions, `Spherical`, `WGS84` or any other. -/
inductive Sys where
  | cf (k : Kind)
  | sphere
  | wgs84
  | plain
  deriving DecidableEq, Repr

/-- A coordinate system: its class, name and PROJ.4 parameters, and for CF grid mappings the parameters
(`map_parameters_values`) and the names of the projection coordinates. -/
structure Crs where
  sys : Sys
  name : String
  value : Attrs
  params : Attrs := []
  px : Option String := none
  py : Option String := none
  deriving DecidableEq, Repr

/-- The PROJ.4 parameters of `Spherical` (crs.py:800-804). -/
def sphereValue (radius : Int) : Attrs :=
  [("proj", .text "longlat"), ("towgs84", .text "0,0,0,0,0,0,0"), ("no_defs", .text ""), ("a", .num radius), ("b", .num radius)]

/-- `CFSpherical()` (crs.py:1031-1040). -/
def cfSpherical : Crs := { sys := .cf .spherical, name := "latitude_longitude", value := sphereValue 6370997 }

/-- The constructor of a CF coordinate system other than the spherical one (crs.py:898-928). -/
def construct (k : Kind) (name : String) (params : Attrs) (px py : Option String) : Res Crs :=
  match projEntries k (withExtras k params) (mapParameters k) with
  | .error e => .error e
  | .ok entries =>
    .ok { sys := .cf k, name := name, value := ("proj", .text (projName k)) :: entries, params := withExtras k params, px := px, py := py }

/-- The first variable with the standard name (crs.py:966-972). -/
def withStandardName (sn : String) (vars : Vars) : Option String :=
  (vars.find? fun kv => kv.2.lookup "standard_name" == some (.text sn)).map Prod.fst

/-- The grid mapping variable of a variable, for a class (crs.py:974-992): the one it refers to, or else the first one with a usual
name. -/
def mappingOf (k : Kind) (attrs : Attrs) (vars : Vars) : Option (String × Attrs) :=
  match (match attrs.lookup "grid_mapping" with
    | some (.text g) => (vars.lookup g).map fun as => (g, as)
    | _ => none) with
  | some r => some r
  | none => vars.find? fun kv => (fuzzyNames k).contains kv.1

/-- Drop an attribute. -/
def dropAttr (key : String) (as : Attrs) : Attrs := as.filter fun kv => kv.1 != key

/-- `attrs[key] = value`. -/
def setAttr (key : String) (v : Val) (as : Attrs) : Attrs :=
  if (as.lookup key).isSome then as.map fun kv => if kv.1 = key then (key, v) else kv else as ++ [(key, v)]

/-- The parameters from a grid mapping variable (crs.py:1005-1014, 1095-1097): its attributes, and for Lambert conformal conic the
units of the x-coordinate. -/
def paramsFrom (k : Kind) (as : Attrs) (px : Option String) (vars : Vars) : Attrs :=
  let kwds := dropAttr "grid_mapping_name" as
  if k = .lambert then
    setAttr "units" ((((px.bind fun n => vars.lookup n).getD []).lookup "units").getD .none) kwds
  else kwds

/-- `load_from_metadata` (crs.py:964-1016, 1042-1052), not strict.  `none` is `ProjectionDoesNotMatch`. -/
def load (k : Kind) (attrs : Attrs) (vars : Vars) : Res (Option Crs) :=
  if k = .spherical then
    if attrs.lookup "grid_mapping" = some (.text (gmName .spherical)) ∨
        attrs.lookup "grid_mapping_name" = some (.text (gmName .spherical)) then .ok (some cfSpherical)
    else .ok none
  else
    match mappingOf k attrs vars with
    | none => .ok none
    | some (g, as) =>
      if as.lookup "grid_mapping_name" = some (.text (gmName k)) then
        if k = .rotated then (construct k g (paramsFrom k as none vars) none none).map some
        else
          match withStandardName "projection_x_coordinate" vars, withStandardName "projection_y_coordinate" vars with
          | some px, some py => (construct k g (paramsFrom k as (some px) vars) (some px) (some py)).map some
          | _, _ => .error .projectionCoordinateNotFound
      else .ok none

/-- The first class that matches (nc.py:708-714). -/
def loadFirst (attrs : Attrs) (vars : Vars) : List Kind → Res (Option Crs)
  | [] => .ok none
  | k :: rest =>
    match load k attrs vars with
    | .error e => .error e
    | .ok (some c) => .ok (some c)
    | .ok none => loadFirst attrs vars rest

/-- The coordinate systems found for the variables (nc.py:704-714). -/
def loadAll (vars : Vars) : Vars → Res (List Crs)
  | [] => .ok []
  | kv :: rest =>
    match loadFirst kv.2 vars kinds with
    | .error e => .error e
    | .ok none => loadAll vars rest
    | .ok (some c) =>
      match loadAll vars rest with
      | .error e => .error e
      | .ok cs => .ok (c :: cs)

/-- `CFSpherical.load_from_metadata` with depth two (crs.py:1053-1066): one variable each with the standard names of longitude and
latitude. -/
def hasLonLat (vars : Vars) : Bool :=
  ["longitude", "latitude"].all fun sn =>
    (vars.filter fun kv => kv.2.lookup "standard_name" == some (.text sn)).length == 1

/-- GDAL and PROJ.4: converting parameters to text and back, and the comparison. -/
structure Gdal where
  toText : Attrs → String
  fromText : String → Attrs
  isSame : Attrs → Attrs → Bool

/-- The variables with the role of a coordinate system and a PROJ.4 text (crs.py:439-445).  A text is required; the code takes any
value. -/
def roleVars (vars : Vars) : List (String × String) :=
  vars.filterMap fun kv =>
    if kv.2.lookup "ocgis_role" = some (.text "coordinate_system") then
      match kv.2.lookup "proj4" with
      | some (.text t) => some (kv.1, t)
      | _ => none
    else none

/-- `AbstractProj4CRS.load_from_metadata` (crs.py:431-455). -/
def loadRole (G : Gdal) (vars : Vars) : Res (Option Crs) :=
  match roleVars vars with
  | [] => .ok none
  | [(n, t)] => .ok (some { sys := .plain, name := n, value := G.fromText t })
  | _ => .error .valueError

/-- `get_crs_variable` (nc.py:700-740). -/
def getCrsVariable (G : Gdal) (priority : Bool) (vars : Vars) : Res (Option Crs) :=
  match loadAll vars vars with
  | .error e => .error e
  | .ok [] => loadRole G vars
  | .ok (c :: cs) =>
    if cs.any fun d => d.name != c.name then .error .valueError
    else if priority = false ∧ c.sys = .cf .rotated ∧ hasLonLat vars then .ok (some cfSpherical)
    else .ok (some c)

/-- `get_crs` of the driver for CF files (base.py:142-150, nc.py:350). -/
def getCrs (G : Gdal) (priority : Bool) (vars : Vars) : Res Crs :=
  match getCrsVariable G priority vars with
  | .error e => .error e
  | .ok none => .ok cfSpherical
  | .ok (some c) => .ok c

/-- `CoordinateReferenceSystem.__eq__` (crs.py:521-539). -/
def equal (G : Gdal) (c d : Crs) : Bool :=
  G.isSame c.value d.value || c.value == d.value || dropAttr "wktext" c.value == dropAttr "wktext" d.value

/-- A field: its variables other than the coordinate system, its data variables, its coordinate variables, and its coordinate
system. -/
structure Field where
  vars : Vars
  data : List String
  x : Option String := none
  y : Option String := none
  crs : Option Crs := none
  deriving DecidableEq, Repr

/-- The coordinate system asked for: `'auto'`, or one that is assigned, which may be `None`. -/
inductive Request where
  | auto
  | given (c : Option Crs)
  deriving DecidableEq, Repr

/-- Remove a variable. -/
def dropVar (n : String) (vars : Vars) : Vars := vars.filter fun kv => kv.1 != n

/-- The coordinate system of the field for a file (base.py:262-284).  `f` has the variables of the file. -/
def createField (G : Gdal) (priority : Bool) (req : Request) (f : Field) : Res Field :=
  match getCrs G priority f.vars with
  | .error e => .error e
  | .ok c =>
    match req with
    | .auto => .ok { f with vars := dropVar c.name f.vars, crs := some c }
    | .given none => .ok { f with vars := dropVar c.name f.vars, crs := none }
    | .given (some d) => .ok { f with vars := dropVar d.name (dropVar c.name f.vars), crs := some d }

/-- Whether a class has CF attributes for coordinates (crs.py:676-679, 846-849). -/
def hasCfAttrs : Sys → Bool
  | .cf .spherical | .sphere | .wgs84 => true
  | _ => false

/-- Set an attribute that is not there (crs.py:138-141). -/
def addAttr (key : String) (v : Val) (as : Attrs) : Attrs := if (as.lookup key).isSome then as else as ++ [(key, v)]

/-- Change the attributes of one variable. -/
def onVar (n : Option String) (g : Attrs → Attrs) (vars : Vars) : Vars :=
  vars.map fun kv => if some kv.1 = n then (kv.1, g kv.2) else kv

/-- The attributes for longitudes and latitudes (crs.py:143-151). -/
def addCfAttrs (f : Field) (vars : Vars) : Vars :=
  onVar f.y (fun as => addAttr "standard_name" (.text "latitude") (addAttr "units" (.text "degrees_north") as))
    (onVar f.x (fun as => addAttr "standard_name" (.text "longitude") (addAttr "units" (.text "degrees_east") as)) vars)

/-- `data_variable.attrs['grid_mapping'] = name` (crs.py:124-127). -/
def setMapping (f : Field) (name : String) (vars : Vars) : Vars :=
  vars.map fun kv => if f.data.contains kv.1 then (kv.1, setAttr "grid_mapping" (.text name) kv.2) else kv

/-- `format_spatial_object` of the coordinate system for a field (crs.py:110-151), without transformation. -/
def formatField (c : Crs) (f : Field) : Field :=
  { f with vars := if hasCfAttrs c.sys then addCfAttrs f (setMapping f c.name f.vars) else setMapping f c.name f.vars }

/-- `Field.set_crs` (field.py:797-815).  A variable with the same name is replaced. -/
def setCrs (c : Option Crs) (f : Field) : Field :=
  match c with
  | none => { f with crs := none }
  | some c => formatField c { f with vars := dropVar c.name f.vars, crs := some c }

/-- `update_crs` of the field's grid (base.py:567-609, crs.py:129-135), attributes only: the new coordinate system is set and its
attributes are added to the coordinates that have none, or else units and standard names are removed.  The grid has no data variables;
those of the field are updated when the field is written. -/
def updateCrs (c : Crs) (f : Field) : Field :=
  let vars := dropVar c.name f.vars
  { f with
    crs := some c
    vars := if hasCfAttrs c.sys then addCfAttrs f vars
      else onVar f.y (fun as => dropAttr "standard_name" (dropAttr "units" as))
        (onVar f.x (fun as => dropAttr "standard_name" (dropAttr "units" as)) vars) }

/-- `setattr(variable, k, '' if v is None else v)` (crs.py:1024-1027). -/
def writtenParam (kv : String × Val) : String × Val := if kv.2 = .none then (kv.1, .text "") else kv

/-- The text for PROJ.4 of a coordinate system (crs.py:557-562, 870-872). -/
def proj4Text (G : Gdal) (c : Crs) : String :=
  if c.sys = .wgs84 then "+proj=longlat +ellps=WGS84 +towgs84=0,0,0,0,0,0,0 +no_defs " else G.toText c.value

/-- The attributes of the variable written for a coordinate system (crs.py:593-630, 1020-1028): `write` always uses the default for
`with_proj4`, whatever it is given. -/
def crsAttrs (G : Gdal) (c : Crs) (_withProj4 : Option Bool := none) : Attrs :=
  match c.sys with
  | .cf k => ("grid_mapping_name", .text (gmName k)) :: c.params.map writtenParam
  | _ => [("proj4", .text (proj4Text G c)), ("ocgis_role", .text "coordinate_system")]

/-- What is written: the variables, and the coordinate system as a variable (nc.py:196-228). -/
def toFile (G : Gdal) (f : Field) : Vars :=
  match f.crs with
  | none => f.vars
  | some c => f.vars ++ [(c.name, crsAttrs G c)]

/-- Writing a field (nc.py:476-509): the coordinate system of the field formats it, and is replaced by the one remembered in the
environment, if any. -/
def write (G : Gdal) (actual : Option Crs) (f : Field) : Vars :=
  let f₁ := match f.crs with
    | none => f
    | some c => formatField c f
  match actual with
  | none => toFile G f₁
  | some c => toFile G (setCrs (some c) f₁)

/-- What the environment remembers after the dimension map of a file was made (nc.py:381-398). -/
def remember (G : Gdal) (priority : Bool) (vars : Vars) (actual : Option Crs) : Option Crs :=
  match getCrs G true vars, getCrs G priority vars with
  | .ok raw, .ok c => if priority = false ∧ raw.sys = .cf .rotated ∧ c.sys = .cf .spherical then some raw else actual
  | _, _ => actual

/-- What a process does: open a file, or write a field to a file. -/
inductive Op where
  | openFile (priority : Bool) (vars : Vars)
  | writeField (path : String) (f : Field)

/-- The environment and the files written. -/
structure Process where
  actual : Option Crs := none
  files : List (String × Vars) := []

/-- One operation. -/
def step (G : Gdal) (p : Process) : Op → Process
  | .openFile priority vars => { p with actual := remember G priority vars p.actual }
  | .writeField path f => { p with files := p.files ++ [(path, write G p.actual f)] }

/-- A history of operations. -/
def run (G : Gdal) (ops : List Op) : Process := ops.foldl (step G) {}

end Ocgis.CrsMeta
