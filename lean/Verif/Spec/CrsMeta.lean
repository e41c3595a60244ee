import Verif.Model.CrsMeta

/-! Vocabulary for the statements about coordinate systems of files and fields. -/

namespace Ocgis.Spec
open Ocgis Ocgis.CrsMeta

/-- The names of the grid mappings in the CF conventions. -/
def cfName : Kind → String
  | .spherical => "latitude_longitude"
  | .albers => "albers_conical_equal_area"
  | .lambert => "lambert_conformal_conic"
  | .polar => "polar_stereographic"
  | .oblique => "transverse_mercator"
  | .rotated => "rotated_latitude_longitude"

/-- The variable `g` with the attributes `as` defines a grid mapping of the kind `k`. -/
def Defines (vars : Vars) (k : Kind) (g : String) (as : Attrs) : Prop :=
  (g, as) ∈ vars ∧ as.lookup "grid_mapping_name" = some (.text (cfName k))

/-- Names under which a grid mapping is found if no variable refers to it. -/
def usualNames : Kind → List String
  | .rotated => ["rotated_latitude_longitude", "rotated_pole", "rotated_lat_lon"]
  | k => [cfName k]

/-- The file has one grid mapping, the variable `g`.  Variables refer to no other, and one refers to it or it has a usual name. -/
structure OneMapping (vars : Vars) (k : Kind) (g : String) (as : Attrs) : Prop where
  names : (vars.map Prod.fst).Nodup
  defines : Defines vars k g as
  only : ∀ k' g' as', Defines vars k' g' as' → g' = g
  refers : ∀ v va r, (v, va) ∈ vars → va.lookup "grid_mapping" = some (.text r) → r = g
  found : (∃ v va, (v, va) ∈ vars ∧ va.lookup "grid_mapping" = some (.text g)) ∨
    (g ∈ usualNames k ∧ as.lookup "grid_mapping" = none ∧ ∀ v va, (v, va) ∈ vars → v ∈ usualNames k → v = g)
  notSpherical : k = .spherical ∨ g ≠ "latitude_longitude"

/-- `v` is the first variable with the standard name `sn`. -/
def FirstWith (sn : String) (vars : Vars) (v : String) : Prop :=
  ∃ before va after, vars = before ++ (v, va) :: after ∧ va.lookup "standard_name" = some (.text sn) ∧
    ∀ w wa, (w, wa) ∈ before → wa.lookup "standard_name" ≠ some (.text sn)

/-- The parameters that a grid mapping must have. -/
def Needs : Kind → List String
  | .spherical => []
  | .albers => ["standard_parallel", "longitude_of_central_meridian", "latitude_of_projection_origin", "false_easting", "false_northing"]
  | .lambert => ["standard_parallel", "longitude_of_central_meridian", "latitude_of_projection_origin"]
  | .polar => ["standard_parallel", "latitude_of_projection_origin", "straight_vertical_longitude_from_pole", "false_easting",
      "false_northing"]
  | .oblique => ["latitude_of_projection_origin", "longitude_of_central_meridian", "scale_factor_at_central_meridian", "false_easting",
      "false_northing"]
  | .rotated => ["grid_north_pole_longitude", "grid_north_pole_latitude"]

/-- One standard parallel or several. -/
def parallels : Val → Attrs
  | .nums l => l.mapIdx fun i v => ("lat_" ++ toString (i + 1), .num v)
  | v => [("lat_1", v)]

/-- The PROJ.4 parameters that stand for the parameters `a` of a grid mapping. -/
def projOf (k : Kind) (a : String → Option Val) (units : Val) : Attrs :=
  match k with
  | .spherical => []
  | .albers => ("proj", .text "aea") :: parallels ((a "standard_parallel").getD .none) ++
      [("lon_0", (a "longitude_of_central_meridian").getD .none), ("lat_0", (a "latitude_of_projection_origin").getD .none),
       ("x_0", (a "false_easting").getD .none), ("y_0", (a "false_northing").getD .none)]
  | .lambert => ("proj", .text "lcc") :: parallels ((a "standard_parallel").getD .none) ++
      [("lon_0", (a "longitude_of_central_meridian").getD .none), ("lat_0", (a "latitude_of_projection_origin").getD .none),
       ("x_0", (a "false_easting").getD (.num 0)), ("y_0", (a "false_northing").getD (.num 0)), ("units", units)]
  | .polar => [("proj", .text "stere"), ("lat_ts", (a "standard_parallel").getD .none),
      ("lat_0", (a "latitude_of_projection_origin").getD .none), ("lon_0", (a "straight_vertical_longitude_from_pole").getD .none),
      ("x_0", (a "false_easting").getD .none), ("y_0", (a "false_northing").getD .none),
      ("k_0", (a "scale_factor").getD (.num 1))]
  | .oblique => [("proj", .text "omerc"), ("lat_0", (a "latitude_of_projection_origin").getD .none),
      ("lonc", (a "longitude_of_central_meridian").getD .none), ("k_0", (a "scale_factor_at_central_meridian").getD .none),
      ("x_0", (a "false_easting").getD .none), ("y_0", (a "false_northing").getD .none), ("alpha", (a "alpha").getD (.num 360))]
  | .rotated => [("proj", .text "omerc")]

/-- The file says nothing of grid mappings. -/
def NoMapping (vars : Vars) : Prop :=
  (∀ k g as, ¬ Defines vars k g as) ∧ ∀ v va, (v, va) ∈ vars → va.lookup "grid_mapping" ≠ some (.text "latitude_longitude")

/-- The variable `g` holds the PROJ.4 text `t` of a coordinate system. -/
def Holds (vars : Vars) (g t : String) : Prop :=
  ∃ as, (g, as) ∈ vars ∧ as.lookup "ocgis_role" = some (.text "coordinate_system") ∧ as.lookup "proj4" = some (.text t)

/-- The variables of a field say nothing of coordinate systems, except for data variables that refer to one, and none has the name of
the coordinate system of the field. -/
structure CleanField (f : Field) : Prop where
  names : (f.vars.map Prod.fst).Nodup
  free : ∀ c, f.crs = some c → c.name ∉ f.vars.map Prod.fst
  unmarked : ∀ v va, (v, va) ∈ f.vars → va.lookup "grid_mapping_name" = none ∧
    va.lookup "ocgis_role" ≠ some (.text "coordinate_system") ∧ (v ∉ f.data → va.lookup "grid_mapping" = none)

/-- The parameters of a coordinate system can be stored as attributes. -/
structure Storable (params : Attrs) : Prop where
  keys : (params.map Prod.fst).Nodup
  values : ∀ k, (k, Val.none) ∉ params
  names : params.lookup "grid_mapping_name" = none ∧ params.lookup "grid_mapping" = none

/-- The grid mapping will be found in the file: there is a data variable, or it has a usual name that nothing else has. -/
def CanBeFound (f : Field) (k : Kind) (g : String) : Prop :=
  (∃ v va, (v, va) ∈ f.vars ∧ v ∈ f.data) ∨ (g ∈ usualNames k ∧ ∀ v va, (v, va) ∈ f.vars → v ∉ usualNames k)

end Ocgis.Spec
