import Verif.Py
import Mathlib.Analysis.SpecialFunctions.Complex.Arg
import Mathlib.Analysis.SpecialFunctions.Trigonometric.Inverse
/-!
# Transforming coordinates

`update_crs` of grids (spatial/base.py:144-163, 567-609), geometries (variable/geom.py:1131-1181) and fields
(collection/field.py:1014-1029), the transformation to Cartesian coordinates and back (variable/crs.py:671-833) and the calls for rotated
poles (variable/crs.py:1151-1168).

Numbers are real numbers instead of floating point numbers.  PROJ.4, GDAL and the program `proj` are functions that are not looked into
(`Ext`).  Grids are expanded already (see `Coords`): their centres and corners are lists.  Levels have the shape of the grid.  Geometries
are polygons; GDAL leaves their heights as they are.  Masks and attributes are left out (for attributes see `CrsMeta`).
-/
namespace Ocgis.CoordTransform
open Ocgis

/-- The errors. -/
inductive Err where
  | valueError | attributeError | assertionError | crsNotEquivalent
  deriving DecidableEq, Repr

/-- Coordinate systems: `Cartesian`, `Spherical`, `Tripole`, `CFRotatedPole`, and all others, which have a PROJ.4 text.  `radians` tells
the angular units. -/
inductive Crs where
  | cartesian
  | spherical (radius : Rat) (radians : Bool)
  | tripole (radians : Bool)
  | rotated (lon lat : Rat)
  | other (text : String) (geographic : Bool)
  deriving DecidableEq, Repr

/-- PROJ.4 and GDAL: the text for a sphere, `pyproj.transform`, the program `proj` for a rotated pole (`inverse` is `invproj`), `TransformTo`
of GDAL and its comparison. -/
structure Ext where
  sphereText : Rat → String
  proj : String → String → ℝ × ℝ → ℝ × ℝ
  rotate : Rat → Rat → Bool → ℝ × ℝ → ℝ × ℝ
  ogr : String → String → ℝ × ℝ → ℝ × ℝ
  isSame : String → String → Bool

/-- The property `proj4` (crs.py:576-582).  All rotated poles have the same.  Cartesian and tripole systems have none. -/
def proj4 (E : Ext) : Crs → Option String
  | .cartesian => none
  | .spherical r _ => some (E.sphereText r)
  | .tripole _ => none
  | .rotated _ _ => some "+proj=omerc"
  | .other t _ => some t

/-- The property `is_geographic` (crs.py:564-566, 661, 816). -/
def geographic : Crs → Bool
  | .cartesian => true
  | .spherical _ _ => true
  | .tripole _ => true
  | .rotated _ _ => false
  | .other _ g => g

/-- The property `is_wrappable` (crs.py:568-570, 660, 817). -/
def wrappable : Crs → Bool
  | .cartesian => false
  | .spherical _ _ => true
  | .tripole _ => true
  | .rotated _ _ => false
  | .other _ g => g

/-- A point with a level. -/
structure Pt where
  x : ℝ
  y : ℝ
  z : ℝ

/-- Degrees to radians (constants.py:497). -/
noncomputable def degToRad : ℝ := Real.pi / 180

/-- Radians to degrees (constants.py:498). -/
noncomputable def radToDeg : ℝ := 180 / Real.pi

/-- Cartesian coordinates of a point (crs.py:702-713), after the longitude was checked. -/
noncomputable def toCart (radians : Bool) (p : Pt) : Pt :=
  let x := if radians then p.x else p.x * degToRad
  let y := if radians then p.y else p.y * degToRad
  ⟨p.z * Real.cos y * Real.cos x, p.z * Real.cos y * Real.sin x, p.z * Real.sin y⟩

/-- Spherical coordinates of a point (crs.py:693-700).  `arctan2(y, x)` is the argument of `x + iy`. -/
noncomputable def fromCart (radians : Bool) (p : Pt) : Pt :=
  let r := Real.sqrt (p.x ^ 2 + p.y ^ 2 + p.z ^ 2)
  let lon := Complex.arg ⟨p.x, p.y⟩
  let lat := Real.arcsin (p.z / r)
  if radians then ⟨lon, lat, r⟩ else ⟨lon * radToDeg, lat * radToDeg, r⟩

open Classical in
/-- `transform_coordinates` (crs.py:671-715). -/
noncomputable def transformCoordinates (radians : Bool) (dst : Crs) (inverse : Bool) (ps : List Pt) : Except Err (List Pt) :=
  if dst ≠ .cartesian then .error .crsNotEquivalent
  else if inverse then .ok (ps.map (fromCart radians))
  else if radians = false ∧ ∃ p ∈ ps, p.x > 180 then .error .valueError
  else .ok (ps.map (toCart radians))

/-- A grid: its centres and their levels, the corners of its cells and their levels. -/
structure Grid where
  points : List (ℝ × ℝ)
  levels : Option (List ℝ) := none
  corners : Option (List (ℝ × ℝ)) := none
  cornerLevels : Option (List ℝ) := none

/-- Coordinates and levels together. -/
def withLevels (ps : List (ℝ × ℝ)) (zs : List ℝ) : List Pt := List.zipWith (fun p z => ⟨p.1, p.2, z⟩) ps zs

/-- Whether coordinates are unwrapped (crs.py:357-376); undefined if the coordinate system cannot be wrapped (crs.py:230-232). -/
def Unwrapped (crs : Option Crs) (xs : List ℝ) : Prop := (∃ c, crs = some c ∧ wrappable c = true) ∧ ∃ x ∈ xs, x > 180

open Classical in
/-- `transform_grid` of spherical systems (crs.py:747-787).  `crs` is the coordinate system of the grid. -/
noncomputable def sphericalTransformGrid (radians : Bool) (crs : Option Crs) (dst : Crs) (inverse : Bool) (g : Grid) : Except Err Grid :=
  if inverse = false ∧ Unwrapped crs (g.points.map Prod.fst) then .error .valueError
  else
    match g.levels with
    | none => .error .valueError
    | some zs =>
      match transformCoordinates radians dst inverse (withLevels g.points zs) with
      | .error e => .error e
      | .ok ps =>
        match g.corners with
        | none => .ok { g with points := ps.map fun p => (p.x, p.y), levels := some (ps.map Pt.z) }
        | some cs =>
          match g.cornerLevels with
          | none => .error .attributeError
          | some czs =>
            match transformCoordinates radians dst inverse (withLevels cs czs) with
            | .error e => .error e
            | .ok qs => .ok ⟨ps.map fun p => (p.x, p.y), some (ps.map Pt.z), some (qs.map fun p => (p.x, p.y)), some (qs.map Pt.z)⟩

/-- `transform_grid` of all classes (crs.py:747, 830-833); most have none. -/
noncomputable def transformGrid (src : Crs) (crs : Option Crs) (dst : Crs) (inverse : Bool) (g : Grid) : Except Err Grid :=
  match src with
  | .spherical _ radians | .tripole radians => sphericalTransformGrid radians crs dst inverse g
  | .cartesian =>
    match dst with
    | .spherical _ radians | .tripole radians => sphericalTransformGrid radians crs .cartesian true g
    | _ => .error .crsNotEquivalent
  | .rotated _ _ | .other _ _ => .error .attributeError

/-- `update_with_rotated_pole_transformation` (crs.py:1151-1168): bounds are removed. -/
def rotateGrid (E : Ext) (lon lat : Rat) (crs : Option Crs) (inverse : Bool) (g : Grid) : Except Err Grid :=
  match crs with
  | none => .error .attributeError
  | some c =>
    if geographic c || (match c with | .rotated _ _ => true | _ => false) then
      .ok { g with points := g.points.map (E.rotate lon lat inverse), corners := none, cornerLevels := none }
    else .error .assertionError

/-- The last branch of `update_crs` (base.py:585-607). -/
def projGrid (E : Ext) (src dst : Crs) (g : Grid) : Except Err Grid :=
  match proj4 E src, proj4 E dst with
  | some s, some t => .ok { g with points := g.points.map (E.proj s t), corners := g.corners.map fun cs => cs.map (E.proj s t) }
  | _, _ => .error .attributeError

/-- The transformation in `update_crs` of a grid (base.py:144-163, 567-605).  `crs` is the coordinate system of the grid. -/
noncomputable def gridValues (E : Ext) (crs dst src : Option Crs) (g : Grid) : Except Err Grid :=
  match dst, src.or crs with
  | none, _ => .error .valueError
  | _, none => .error .valueError
  | some dst, some src =>
    if crs = some .cartesian ∨ dst = .cartesian then transformGrid src crs dst (decide (dst ≠ .cartesian)) g
    else
      match crs, dst with
      | some (.rotated _ _), _ =>
        match src with
        | .rotated lon lat => rotateGrid E lon lat crs false g
        | _ => .error .attributeError
      | _, .rotated lon lat => rotateGrid E lon lat crs true g
      | _, _ => projGrid E src dst g

/-- Spherical systems in radians cannot format the coordinate variables (crs.py:663-669). -/
def formatError : Option Crs → Option Err
  | some (.spherical _ true) | some (.tripole true) => some .valueError
  | _ => none

/-- `update_crs` of a grid (base.py:567-609), in place: the grid and its coordinate system afterwards, and the error if any. -/
noncomputable def updateGrid (E : Ext) (crs dst src : Option Crs) (g : Grid) : (Grid × Option Crs) × Option Err :=
  match gridValues E crs dst src g with
  | .error e => ((g, crs), some e)
  | .ok g' => ((g', dst), formatError dst)

/-- A polygon: its exterior ring, whether it has heights, and its interior rings. -/
structure Geom where
  shell : List Pt
  hasZ : Bool
  holes : List (List Pt) := []

/-- `transform_geometry` of spherical systems (crs.py:717-745).  The rings without heights get the height one. -/
noncomputable def sphericalTransformGeom (radians : Bool) (dst : Crs) (inverse : Bool) (g : Geom) : Except Err Geom :=
  match transformCoordinates radians dst inverse (if g.hasZ then g.shell else g.shell.map fun p => { p with z := 1 }) with
  | .error e => .error e
  | .ok ps => .ok ⟨ps, true, []⟩

open Classical in
/-- `transform_geometry` of geometry variables (crs.py:717-725, 825-828): there must be one geometry. -/
noncomputable def transformGeoms (radians : Bool) (crs : Option Crs) (dst : Crs) (inverse : Bool) : List Geom → Except Err (List Geom)
  | [g] =>
    if inverse = false ∧ Unwrapped crs (g.shell.map Pt.x) then .error .valueError
    else
      match sphericalTransformGeom radians dst inverse g with
      | .error e => .error e
      | .ok g' => .ok [g']
  | _ => .error .assertionError

/-- `TransformTo` of a polygon. -/
def ogrGeom (E : Ext) (s t : String) (g : Geom) : Geom :=
  let f := fun p : Pt => { p with x := (E.ogr s t (p.x, p.y)).1, y := (E.ogr s t (p.x, p.y)).2 }
  { g with shell := g.shell.map f, holes := g.holes.map fun r => r.map f }

/-- `update_crs` of a geometry variable (geom.py:1131-1181).  Equal coordinate systems (crs.py:522-544) need no transformation.
Tripole systems are objects that are never equal here. -/
noncomputable def updateGeoms (E : Ext) (crs dst src : Option Crs) (gs : List Geom) : Except Err (List Geom) :=
  match dst, src.or crs with
  | none, _ => .error .valueError
  | _, none => .error .valueError
  | some dst, some src =>
    if src = .cartesian ∨ dst = .cartesian then
      match src with
      | .spherical _ radians | .tripole radians => transformGeoms radians crs dst (decide (dst ≠ .cartesian)) gs
      | .cartesian =>
        match dst with
        | .spherical _ radians | .tripole radians => transformGeoms radians crs .cartesian true gs
        | _ => .error .crsNotEquivalent
      | .rotated _ _ | .other _ _ => .error .attributeError
    else
      match proj4 E src, proj4 E dst with
      | some s, some t => if E.isSame s t || s == t then .ok gs else .ok (gs.map (ogrGeom E s t))
      | _, _ => .error .attributeError

/-- A field: its coordinate system, its grid and its geometries with their own coordinate system. -/
structure Field where
  crs : Option Crs
  grid : Option Grid := none
  geoms : Option (List Geom) := none
  geomCrs : Option Crs := none

/-- `update_crs` of a field (field.py:1014-1029), in place: the field afterwards, and the error if any.  The field has a grid or
geometries.  The coordinate system of the field overrides that of the geometries (field.py:337-344). -/
noncomputable def updateField (E : Ext) (dst src : Option Crs) (f : Field) : Field × Option Err :=
  let src := src.or f.crs
  let (f₁, e) := match f.grid with
    | none => (f, none)
    | some g =>
      let u := updateGrid E f.crs dst src g
      ({ f with grid := some u.1.1, crs := u.1.2 }, u.2)
  match e with
  | some e => (f₁, some e)
  | none =>
    match f₁.geoms with
    | none => ({ f₁ with crs := dst }, none)
    | some gs =>
      match updateGeoms E (f₁.crs.or f₁.geomCrs) dst src gs with
      | .error e => (f₁, some e)
      | .ok gs' => ({ f₁ with geoms := some gs', geomCrs := dst, crs := dst }, none)

end Ocgis.CoordTransform
