import Verif.Py

/-!
# Wrapping geometries

`GeometryWrapper` (spatial/wrap.py), the wrapped state of coordinates and geometries and what is done about it before a selection
(variable/crs.py, variable/geom.py, spatial/spatial_subset.py).  The intersection of polygons with a box is a parameter: it is Shapely's.
Invalid polygons, empty geometries and transformations between coordinate systems are left out.  Coordinates are rational numbers.
-/

namespace Ocgis.GeomWrap
open Ocgis

/-- A Shapely polygon: the coordinates of its exterior and of its interior rings.  The first coordinate of a ring is repeated at its end. -/
structure Poly where
  ring : List (Rat × Rat)
  holes : List (List (Rat × Rat)) := []
  deriving DecidableEq, Repr

/-- `make_poly` (util/helpers.py:1231-1240) and the bounds of a box. -/
structure Box where
  minx : Rat
  miny : Rat
  maxx : Rat
  maxy : Rat
  deriving DecidableEq, Repr

/-- A single part of an intersection. -/
inductive Piece where
  | poly (p : Poly)
  | line
  | point
  deriving DecidableEq, Repr

/-- Shapely's `intersection` of a polygon or multi-polygon with a box, exploded into its parts. -/
abbrev Meet := List Poly → Box → List Piece

inductive Geom where
  | poly (p : Poly)
  | multi (ps : List Poly)
  | point (p : Rat × Rat)
  | points (ps : List (Rat × Rat))
  | other
  deriving DecidableEq, Repr

/-- The clips of a `GeometryWrapper` with default axes (wrap.py:90-98). -/
def rightClip : Box := ⟨180, -90, 360, 90⟩
def leftClip : Box := ⟨-180, -90, 180, 90⟩
def clip1 : Box := ⟨-180, -90, 0, 90⟩
def clip2 : Box := ⟨0, -90, 180, 90⟩

/-- Only the exterior is moved (wrap.py:189-192, 278-288). -/
def shiftPoly (d : Rat) (p : Poly) : Poly := { ring := p.ring.map fun c => (c.1 + d, c.2) }

/-- Every piece is moved; only polygons have an exterior (wrap.py:194-200, 137-140). -/
def shiftPieces (d : Rat) : List Piece → Res (List Poly)
  | [] => .ok []
  | .poly p :: rest =>
    match shiftPieces d rest with
    | .ok qs => .ok (shiftPoly d p :: qs)
    | .error e => .error e
  | _ :: _ => .error .attributeError

/-- `_shift_` of an intersection (wrap.py:188-201); a single line or point has no length. -/
def shiftWrap : List Piece → Res (List Poly)
  | [.line] => .error .typeError
  | [.point] => .error .typeError
  | ps => shiftPieces (-360) ps

/-- The left side in `unwrap` (wrap.py:134-140); a single line or point cannot be iterated. -/
def shiftUnwrap : List Piece → Res (List Poly)
  | [.line] => .error .typeError
  | [.point] => .error .typeError
  | ps => shiftPieces 360 ps

/-- `MultiPolygon(...)`, again without the lines if it is refused (wrap.py:142-148, 212, 214-219). -/
def polygons : List Piece → Res (List Poly)
  | [] => .ok []
  | .poly p :: rest =>
    match polygons rest with
    | .ok qs => .ok (p :: qs)
    | .error e => .error e
  | .line :: rest => polygons rest
  | .point :: _ => .error .typeError

/-- The smallest and the largest first coordinate (`geom.bounds`). -/
def minX : List Rat → Rat
  | [] => 0
  | [x] => x
  | x :: xs => min x (minX xs)

def maxX : List Rat → Rat
  | [] => 0
  | [x] => x
  | x :: xs => max x (maxX xs)

/-- The first coordinates of the exteriors. -/
def lons (ps : List Poly) : List Rat := ps.flatMap fun p => p.ring.map Prod.fst

/-- One or several polygons (wrap.py:166-173). -/
def assemble : List Poly → Res Geom
  | [] => .error .indexError
  | [p] => .ok (.poly p)
  | ps => .ok (.multi ps)

/-- The polygons in `wrap` (wrap.py:203-222).  `again` makes the geometry from polygons when all of it is moved. -/
def wrapPolys (meet : Meet) (geom : Geom) (again : List Poly → Geom) (ps : List Poly) : Res Geom :=
  if 180 < minX (lons ps) ∧ 180 < maxX (lons ps) then .ok (again (ps.map (shiftPoly (-360))))
  else if minX (lons ps) ≤ 180 ∧ 180 < maxX (lons ps) then
    match shiftWrap (meet ps rightClip) with
    | .error e => .error e
    | .ok right =>
      match polygons (meet ps leftClip) with
      | .error e => .error e
      | .ok left => .ok (.multi (left ++ right))
  else .ok geom

/-- `wrap` of a point (wrap.py:225-239). -/
def wrapPoint (p : Rat × Rat) : Rat × Rat := if p.1 > 180 then (p.1 - 360, p.2) else p

/-- `_unwrap_point_` (wrap.py:255-276). -/
def unwrapPoint (p : Rat × Rat) : Rat × Rat := if p.1 < 0 then (p.1 + 360, p.2) else p

/-- `GeometryWrapper.wrap` (wrap.py:181-243). -/
def wrap (meet : Meet) (g : Geom) : Res Geom :=
  match g with
  | .poly p => wrapPolys meet g (fun ps => .poly (ps.headD ⟨[], []⟩)) [p]
  | .multi ps => wrapPolys meet g .multi ps
  | .point p => .ok (.point (wrapPoint p))
  | .points ps => .ok (.points (ps.map wrapPoint))
  | .other => .error .notImplemented

/-- `_should_unwrap_geom_` for one polygon (wrap.py:245-253). -/
def shouldUnwrap (p : Poly) : Bool := p.ring.any fun c => decide (c.1 < 0)

/-- One polygon in `unwrap` (wrap.py:126-161). -/
def unwrapPoly (meet : Meet) (p : Poly) : Res (List Poly) :=
  if shouldUnwrap p then
    match shiftUnwrap (meet [p] clip1) with
    | .error e => .error e
    | .ok left =>
      match polygons (meet [p] clip2) with
      | .error e => .error e
      | .ok right => .ok (left ++ right)
  else .ok [p]

/-- All polygons (wrap.py:116-164). -/
def unwrapEach (meet : Meet) : List Poly → Res (List Poly)
  | [] => .ok []
  | p :: ps =>
    match unwrapPoly meet p with
    | .error e => .error e
    | .ok qs =>
      match unwrapEach meet ps with
      | .error e => .error e
      | .ok rs => .ok (qs ++ rs)

/-- The polygons in `unwrap` (wrap.py:112-177). -/
def unwrapPolys (meet : Meet) (geom : Geom) (ps : List Poly) : Res Geom :=
  if ps.any shouldUnwrap then
    match unwrapEach meet ps with
    | .error e => .error e
    | .ok qs => assemble qs
  else .ok geom

/-- `GeometryWrapper.unwrap` (wrap.py:100-179); anything else fails an assertion. -/
def unwrap (meet : Meet) (g : Geom) : Res Geom :=
  match g with
  | .poly p => unwrapPolys meet g [p]
  | .multi ps => unwrapPolys meet g ps
  | .point p => .ok (.point (unwrapPoint p))
  | .points ps => .ok (.points (ps.map unwrapPoint))
  | .other => .error .assertionError

/-- `WrappedState` and `WrapAction` (constants.py:207-220): integers; a state is compared with an action by its number. -/
inductive WState where
  | wrapped
  | unwrapped
  | unknown
  deriving DecidableEq, Repr

inductive Action where
  | wrap
  | unwrap
  deriving DecidableEq, Repr

/-- `state == action` (crs.py:330): 1 and 2. -/
def sameNumber : WState → Action → Bool
  | .wrapped, .wrap => true
  | .unwrapped, .unwrap => true
  | _, _ => false

/-- `_get_wrapped_state_from_array_` (crs.py:357-376). -/
def stateOf (arr : List Rat) : WState :=
  if arr.any fun x => decide (180 < x) then .unwrapped
  else if arr.any fun x => decide (x < 0) then .wrapped
  else .unknown

/-- The coordinates looked at in `_get_wrapped_state_from_geometry_` (crs.py:389-402). -/
def coordsOf : Geom → List Rat
  | .poly p => lons [p]
  | .multi ps => lons ps
  | .point p => [p.1]
  | .points ps => ps.map Prod.fst
  | .other => []

/-- `_get_wrapped_state_from_geometry_` (crs.py:378-404). -/
def stateOfGeom (g : Geom) : Res WState :=
  match g with
  | .other => .error .notImplemented
  | g => .ok (stateOf (coordsOf g))

/-- The loop over the geometries of a variable; masked ones are `none` (crs.py:249-259). -/
def stateOfGeoms : List (Option Geom) → Res WState
  | [] => .ok .unknown
  | none :: rest => stateOfGeoms rest
  | some g :: rest =>
    match stateOfGeom g with
    | .error e => .error e
    | .ok .unknown => stateOfGeoms rest
    | .ok s => .ok s

/-- `get_wrapped_state` after gathering (crs.py:261-274): the ranks' states, `none` from empty ranks.  The last case takes the first
element of a set: `pick` stands for the order of the set. -/
def gatherState (pick : List (Option WState) → Option WState) (rets : List (Option WState)) : Option WState :=
  if rets.contains (some .wrapped) then some .wrapped
  else if rets.contains (some .unwrapped) then some .unwrapped
  else pick rets

/-- `get_wrap_action` (crs.py:179-215) for valid states. -/
def wrapAction (src dst : WState) : Option Action :=
  match dst with
  | .unknown => none
  | .wrapped => if src = .unwrapped then some .wrap else none
  | .unwrapped => if src = .wrapped then some .unwrap else none

/-- One geometry. -/
def act (meet : Meet) (a : Action) (g : Geom) : Res Geom :=
  match a with
  | .wrap => wrap meet g
  | .unwrap => unwrap meet g

/-- The geometries that are not masked, in place (crs.py:336-342). -/
def actAll (meet : Meet) (a : Action) : List (Option Geom) → Res (List (Option Geom))
  | [] => .ok []
  | none :: rest =>
    match actAll meet a rest with
    | .ok gs => .ok (none :: gs)
    | .error e => .error e
  | some g :: rest =>
    match act meet a g with
    | .error e => .error e
    | .ok g =>
      match actAll meet a rest with
      | .ok gs => .ok (some g :: gs)
      | .error e => .error e

/-- `wrap_or_unwrap` of a geometry variable in one process, the state being detected (crs.py:323-355, spatial/base.py:69-106). -/
def wrapOrUnwrap (meet : Meet) (a : Action) (force : Bool) (gs : List (Option Geom)) : Res (List (Option Geom)) :=
  match stateOfGeoms gs with
  | .error e => .error e
  | .ok s => if !sameNumber s a || force then actAll meet a gs else .ok gs

/-- The wrapping in `_prepare_geometry_` (spatial/spatial_subset.py:246-256). -/
def prepareSubset (meet : Meet) (field : WState) (g : Geom) : Res Geom :=
  match stateOfGeom g with
  | .error e => .error e
  | .ok s =>
    match field, s with
    | .unwrapped, .wrapped => act meet .unwrap g
    | .wrapped, .unwrapped => act meet .wrap g
    | _, _ => .ok g

/-- The wrapping in `GeometryVariable.prepare` (variable/geom.py:1106-1120): the action, if any. -/
def prepareAction (archetype ret : WState) : Option Action :=
  if archetype = .unknown then none
  else if ret = .unknown then none
  else if archetype = ret then none
  else if archetype = .wrapped ∧ ret = .unwrapped then some .wrap
  else some .unwrap

/-- `prepare_geometry_variable` for a bounding box (crs.py:276-307) with the default tolerance. -/
def prepareBox (state : WState) (b : Box) : List Box :=
  if state = .unwrapped then
    if b.minx < 0 then [b, ⟨b.minx + 360, b.miny, 360 + 10, b.maxy⟩] else [b]
  else [b]

/-- The boxes with which a grid is asked (spatial/grid.py:589-597): what is prepared is not used. -/
def gridBoxes (_state : WState) (b : Box) : List Box := [b]

/-- The boxes with which unstructured coordinates are asked (spatial/geomc.py:508-516). -/
def geomcBoxes (state : WState) (b : Box) : List Box := prepareBox state b

end Ocgis.GeomWrap
