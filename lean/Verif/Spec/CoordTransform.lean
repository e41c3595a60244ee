import Verif.Model.CoordTransform

/-! Vocabulary for the statements about transforming coordinates. -/

namespace Ocgis.Spec
open Ocgis Ocgis.CoordTransform

/-- A coordinate system that PROJ.4 knows by its text, in degrees if it is geographic. -/
def Known : Crs → Prop
  | .spherical _ radians => radians = false
  | .other _ _ => True
  | _ => False

/-- `place c p` is the place on the Earth with the coordinates `p` in the system `c`.  PROJ.4 and GDAL transform coordinates of known
systems to coordinates of the same place, `proj` does so between rotated poles and spheres in degrees, and GDAL takes systems for the same
only if they are. -/
structure Faithful {α : Type} (E : Ext) (place : Crs → ℝ × ℝ → α) : Prop where
  proj : ∀ a b s t p, Known a → Known b → proj4 E a = some s → proj4 E b = some t → place b (E.proj s t p) = place a p
  ogr : ∀ a b s t p, Known a → Known b → proj4 E a = some s → proj4 E b = some t → place b (E.ogr s t p) = place a p
  same : ∀ a b s t p, Known a → Known b → proj4 E a = some s → proj4 E b = some t → E.isSame s t = true ∨ s = t → place b p = place a p
  fromPole : ∀ r lon lat p, place (.spherical r false) (E.rotate lon lat false p) = place (.rotated lon lat) p
  toPole : ∀ r lon lat p, place (.rotated lon lat) (E.rotate lon lat true p) = place (.spherical r false) p

/-- The pairs of coordinate systems for which transforming works without Cartesian coordinates: known systems, a rotated pole and a
sphere in degrees, or the other way round. -/
inductive CanTransform : Crs → Crs → Prop
  | known {a b : Crs} : Known a → Known b → CanTransform a b
  | fromPole {r lon lat : Rat} : CanTransform (.rotated lon lat) (.spherical r false)
  | toPole {r lon lat : Rat} : CanTransform (.spherical r false) (.rotated lon lat)

/-- The points of a polygon, ring by ring. -/
def rings (g : Geom) : List (List (ℝ × ℝ)) := (g.shell :: g.holes).map fun r => r.map fun p => (p.x, p.y)

/-- Longitude, latitude and distance in the ranges where they are determined by the point. -/
def PtInRange (radians : Bool) (p : Pt) : Prop :=
  let half : ℝ := if radians then Real.pi else 180
  p.x ≤ half ∧ -half < p.x ∧ -(half / 2) < p.y ∧ p.y < half / 2 ∧ 0 < p.z

/-- `q` is the point `p`, given by longitude and latitude in degrees and the distance from the centre, in Cartesian coordinates. -/
def IsCartesian (p q : Pt) : Prop :=
  q.x = p.z * Real.cos (p.y * Real.pi / 180) * Real.cos (p.x * Real.pi / 180) ∧
  q.y = p.z * Real.cos (p.y * Real.pi / 180) * Real.sin (p.x * Real.pi / 180) ∧
  q.z = p.z * Real.sin (p.y * Real.pi / 180)

/-- The centres of a grid followed by its corners, with their levels. -/
def allPoints (g : Grid) : List Pt :=
  List.zipWith (fun p z => ⟨p.1, p.2, z⟩) g.points (g.levels.getD []) ++
    List.zipWith (fun p z => ⟨p.1, p.2, z⟩) (g.corners.getD []) (g.cornerLevels.getD [])

/-- Every centre and corner of the grid has a level, in the ranges given. -/
structure FullGrid (ok : Pt → Prop) (g : Grid) : Prop where
  levels : ∃ zs, g.levels = some zs ∧ zs.length = g.points.length ∧
    ∀ p ∈ List.zip g.points zs, ok ⟨p.1.1, p.1.2, p.2⟩
  corners : g.corners = none ∧ g.cornerLevels = none ∨ ∃ cs zs, g.corners = some cs ∧ g.cornerLevels = some zs ∧ zs.length = cs.length ∧
    ∀ p ∈ List.zip cs zs, ok ⟨p.1.1, p.1.2, p.2⟩

/-- The places of the centres and corners of a grid, and its levels. -/
def gridPlaces {α : Type} (place : ℝ × ℝ → α) (g : Grid) : List α × Option (List ℝ) × Option (List α) × Option (List ℝ) :=
  (g.points.map place, g.levels, g.corners.map (List.map place), g.cornerLevels)

/-- The places of the points of a polygon, ring by ring, and their heights. -/
def geomPlaces {α : Type} (place : ℝ × ℝ → α) (g : Geom) : List (List α) × Bool × List (List ℝ) :=
  ((rings g).map (List.map place), g.hasZ, (g.shell :: g.holes).map (List.map Pt.z))

/-- Everything in a field is in the coordinate system `c` and at the places given. -/
structure At {α : Type} (place : Crs → ℝ × ℝ → α) (c : Crs) (f : Field)
    (grid : Option (List α × Option (List ℝ) × Option (List α) × Option (List ℝ))) (geoms : Option (List (List (List α) × Bool × List (List ℝ)))) :
    Prop where
  crs : f.crs = some c
  geomCrs : f.geoms ≠ none → f.geomCrs = some c
  grid : f.grid.map (gridPlaces (place c)) = grid
  geoms : f.geoms.map (List.map (geomPlaces (place c))) = geoms

/-- A field after a sequence of transformations, and whether one of them failed. -/
noncomputable def updateAll (E : Ext) : List Crs → Field → Field × Bool
  | [], f => (f, false)
  | c :: cs, f =>
    match updateField E (some c) none f with
    | (f', some _) => (f', true)
    | (f', none) => updateAll E cs f'

end Ocgis.Spec
