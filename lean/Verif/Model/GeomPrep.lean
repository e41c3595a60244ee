import Verif.Model.SpatialSelect
import Verif.Model.Geomc
/-!
# Preparing polygons for conversion to node coordinates

What `GeometryVariable.convert_to` does with polygons before their nodes are numbered (`Geomc.lean`): self-intersections are removed, holes and
polygons with many nodes are split, polygons that cannot be split are left out.  Shapely is a parameter.
-/
namespace Ocgis.GeomPrep
open Ocgis Ocgis.Select

/-- The coordinates of a node: two or three numbers. -/
abbrev Coord := List Rat

/-- The coordinates of a closed ring, the first repeated at the end. -/
abbrev Ring := List Coord

/-- The intersection of a polygon and a box: empty, a polygon, or anything else: its parts, polygons and others (lines, points). -/
inductive Cut (P : Type) where
  | nothing
  | polygon (p : P)
  | collection (parts : List (Option P))
  deriving DecidableEq, Repr

/-- What is used of Shapely. -/
structure Engine (P : Type) where
  /-- `polygon.exterior.coords` -/
  exterior : P → Ring
  /-- `polygon.interiors` -/
  interiors : P → List Ring
  /-- `polygon.bounds` -/
  bounds : P → Box
  /-- `interior.centroid` -/
  centroid : Ring → Rat × Rat
  /-- `polygon.intersection(box(...))` -/
  cut : P → Box → Cut P
  /-- `polygon.is_valid` -/
  valid : P → Bool
  /-- `polygon.buffer(0)`: the polygons it consists of -/
  repair : P → List P
  /-- `Polygon(coords)` -/
  polygon : Ring → P
  /-- `polygon.exterior.is_ccw` -/
  ccw : P → Bool
  /-- `orient(polygon)` -/
  orient : P → P

/-- A polygon or a multi-polygon. -/
structure Geom (P : Type) where
  multi : Bool
  parts : List P
  deriving DecidableEq, Repr

/-! ## Holes -/

/-- `count_interiors(geometry)` (variable/geom.py:40-49). -/
def countInteriors {P : Type} (E : Engine P) (g : List P) : Nat := (g.map fun p => (E.interiors p).length).sum

/-- `create_split_polygons(interior)` with `create_split_vector_dict(interior)` (variable/geom.py:65-88): the bounds grown by a buffer are
divided at the centroid. -/
def quadrants (b : Box) (c : Rat × Rat) : List Box :=
  [⟨b.minx, b.miny, c.1, c.2⟩, ⟨c.1, b.miny, b.maxx, c.2⟩, ⟨c.1, c.2, b.maxx, b.maxy⟩, ⟨b.minx, c.2, c.1, b.maxy⟩]

/-- `_buffer_split` (variable/geom.py:53). -/
def bufferSplit : Rat := 1 / 1000000

/-- `MultiPolygon(ret)` (variable/geom.py:116): empty geometries are left out.  What Shapely raises for others than polygons depends on its
version; here it is what the caller expects (variable/geom.py:494). -/
def multiPolygon {P : Type} : List (Cut P) → Res (List P)
  | [] => .ok []
  | .nothing :: rest => multiPolygon rest
  | .polygon p :: rest => match multiPolygon rest with
    | .ok ps => .ok (p :: ps)
    | .error e => .error e
  | .collection _ :: _ => .error .valueError

/-- The pieces of a polygon (variable/geom.py:92-98): four for every interior. -/
def splitPieces {P : Type} (E : Engine P) (p : P) : List (Cut P) :=
  (E.interiors p).flatMap fun r => (quadrants ((E.bounds p).expand bufferSplit) (E.centroid r)).map (E.cut p)

/-- One turn of the loop over the parts (variable/geom.py:106-114). -/
def splitPart {P : Type} (E : Engine P) (p : P) : Res (List P) :=
  if (E.interiors p).isEmpty then .ok [p] else multiPolygon (splitPieces E p)

/-- `GeometrySplitter(geometry).split()` (variable/geom.py:90-116). -/
def split {P : Type} (E : Engine P) (g : List P) : Res (List P) :=
  match g.mapM (splitPart E) with
  | .ok pss => .ok pss.flatten
  | .error e => .error e

/-! ## Many nodes -/

/-- `get_node_count(geom)` (variable/geom.py:1348-1352). -/
def nodeCount {P : Type} (E : Engine P) (g : List P) : Nat := (g.map fun p => (E.exterior p).length).sum

/-- `int(np.ceil(np.sqrt(n)))`. -/
def ceilSqrt (n : Nat) : Nat := ((List.range (n + 1)).find? fun k => decide (n ≤ k * k)).getD n

/-- `split_shape` (variable/geom.py:1369-1375): the root of the number of nodes per threshold, rounded up twice; at least two. -/
def splitShape (count threshold : Nat) : Nat :=
  let n := (count + threshold - 1) / threshold
  if n = 1 then 2 else ceilSqrt n

/-- The parts of an intersection (variable/geom.py:1383-1386, util/helpers.py:547-569). -/
def Cut.parts {P : Type} : Cut P → List (Option P)
  | .nothing => []
  | .polygon p => [some p]
  | .collection ps => ps

/-- The pieces of one part (variable/geom.py:1361-1386, 1392-1396). -/
def thresholdPart {P : Type} (E : Engine P) (threshold : Nat) (p : P) : List (Option P) :=
  if (E.exterior p).length > threshold then
    let n := splitShape (E.exterior p).length threshold
    (splitPolygons (E.bounds p) n n ⟨0, 0, 0, 0⟩).flatMap fun b => (E.cut p b).parts
  else [some p]

/-- `get_split_polygon_by_node_threshold(geom, node_threshold)` (variable/geom.py:1355-1398).  A piece that is not a polygon is refused by
`MultiPolygon` (see `multiPolygon`; here the caller expects a `TypeError`, variable/geom.py:508).  The threshold is positive. -/
def byThreshold {P : Type} (E : Engine P) (threshold : Nat) (g : List P) : Res (List P) :=
  let pieces := g.flatMap (thresholdPart E threshold)
  if pieces.any (·.isNone) then .error .typeError else .ok (pieces.filterMap id)

/-! ## Self-intersections -/

/-- `indices_to_remove` (variable/geom.py:1449-1458): the first of the places of every coordinate that has several. -/
def duplicates (cs : List Coord) : List Coord → Nat → List Coord → List Nat
  | [], _, _ => []
  | c :: rest, i, removed =>
    if decide (1 < cs.count c) && !removed.contains c then i :: duplicates cs rest (i + 1) (removed ++ [c])
    else duplicates cs rest (i + 1) removed

/-- The coordinates without those at the indices (variable/geom.py:1465-1470). -/
def without (cs : List Coord) (is : List Nat) : List Coord := (cs.zipIdx.filter fun p => !is.contains p.2).map (·.1)

/-- The open ring without duplicates (variable/geom.py:1448-1470). -/
def thin (cs : List Coord) : List Coord := without cs (duplicates cs cs 0 [])

/-- The new polygon (variable/geom.py:1460-1472): the array for the new coordinates has two columns. -/
def thinned {P : Type} (E : Engine P) (p : P) : Res P :=
  let cs := (E.exterior p).dropLast
  if (duplicates cs cs 0 []).isEmpty then .ok p
  else if (thin cs).all fun c => c.length == 2 then .ok (E.polygon (thin cs ++ (thin cs).take 1))
  else .error .valueError

/-- `do_remove_self_intersects(poly, try_again)` (variable/geom.py:1438-1481): the polygons, or nothing for `SelfIntersectsRemovalError`.
`again` is what is done with a repaired polygon that is not valid. -/
def removeSelfWith {P : Type} (E : Engine P) (again : List P → Res (Option (List P))) (p : P) : Res (Option (List P)) :=
  if 0 < (E.interiors p).length then .ok none
  else
    match thinned E p with
    | .error e => .error e
    | .ok q =>
      if E.valid q then .ok (some [q])
      else if (E.repair q).all E.valid then .ok (some (E.repair q))
      else again (E.repair q)

/-- Trying again (variable/geom.py:1477-1480): only polygons are supported. -/
def removeSelfAgain {P : Type} (E : Engine P) : List P → Res (Option (List P))
  | [q] => removeSelfWith E (fun _ => .ok none) q
  | _ => .error .valueError

/-- `do_remove_self_intersects(poly)` (variable/geom.py:1438-1481). -/
def removeSelf {P : Type} (E : Engine P) (p : P) : Res (Option (List P)) := removeSelfWith E (removeSelfAgain E) p

/-- The loop over the parts of a multi-polygon (variable/geom.py:1486-1487), each of which has to stay one polygon. -/
def removeSelfParts {P : Type} (E : Engine P) : List P → Res (Option (List P))
  | [] => .ok (some [])
  | p :: rest =>
    match removeSelf E p with
    | .error e => .error e
    | .ok none => .ok none
    | .ok (some [q]) => match removeSelfParts E rest with
      | .error e => .error e
      | .ok none => .ok none
      | .ok (some qs) => .ok (some (q :: qs))
    | .ok (some _) => .error .valueError

/-- `do_remove_self_intersects_multi(poly)` (variable/geom.py:1484-1490). -/
def removeSelfMulti {P : Type} (E : Engine P) (g : Geom P) : Res (Option (List P)) :=
  if g.multi then removeSelfParts E g.parts
  else
    match g.parts with
    | [p] => removeSelf E p
    | _ => .error .valueError

/-! ## The loop of the conversion -/

/-- Keyword arguments of the conversion (variable/geom.py:392-405). -/
structure Opts where
  splitInteriors : Bool := false
  nodeThreshold : Option Nat := none
  allow : Bool := false
  removeSelf : Bool := false
  repeatLast : Bool := false
  pack : Bool := true
  startIndex : Int := 0
  mbv : Int := -8

/-- Removing self-intersections (variable/geom.py:479-485): without permission to leave polygons out, what cannot be cleaned is used as it is. -/
def cleaned {P : Type} (E : Engine P) (o : Opts) (g : Geom P) : Res (Option (List P)) :=
  if o.removeSelf then
    match removeSelfMulti E g with
    | .error e => .error e
    | .ok (some ps) => .ok (some ps)
    | .ok none => if o.allow then .ok none else .ok (some g.parts)
  else .ok (some g.parts)

/-- Splitting holes (variable/geom.py:486-503): the polygons, or nothing if the geometry is left out, and whether there may be several. -/
def openedHoles {P : Type} (E : Engine P) (o : Opts) (ps : List P) : Res (Option (List P) × Bool) :=
  if countInteriors E ps = 0 then .ok (some ps, false)
  else if o.splitInteriors then
    match split E ps with
    | .ok qs => .ok (some qs, true)
    | .error e => if o.allow then .ok (none, false) else .error e
  else .error .valueError

/-- Splitting polygons with many nodes (variable/geom.py:505-515). -/
def fewNodes {P : Type} (E : Engine P) (o : Opts) (ps : List P) (multi : Bool) : Res (Option (List P) × Bool) :=
  match o.nodeThreshold with
  | none => .ok (some ps, multi)
  | some t =>
    if nodeCount E ps > t then
      match byThreshold E t ps with
      | .ok qs => .ok (some qs, true)
      | .error e => if o.allow then .ok (none, multi) else .error e
    else .ok (some ps, multi)

/-- What is made of one geometry before its nodes are numbered (variable/geom.py:476-515): nothing if it is left out. -/
def prepare {P : Type} (E : Engine P) (o : Opts) (g : Geom P) : Res (Option (List P) × Bool) :=
  match cleaned E o g with
  | .error e => .error e
  | .ok none => .ok (none, false)
  | .ok (some ps) =>
    match openedHoles E o ps with
    | .error e => .error e
    | .ok (none, multi) => .ok (none, multi)
    | .ok (some qs, multi) => fewNodes E o qs multi

/-- `get_ccw_oriented_and_valid_shapely_polygon(geom)` (variable/geom.py:1325-1335).  A polygon that is repaired to several has no exterior. -/
def oriented {P : Type} (E : Engine P) (p : P) : Res P :=
  let turn := fun q => if E.ccw q then q else E.orient q
  if E.valid p then .ok (turn p)
  else if (E.repair p).all E.valid then
    match E.repair p with
    | [q] => .ok (turn q)
    | _ => .error .attributeError
  else .error .assertionError

/-- The nodes of a polygon (variable/geom.py:525-531). -/
def nodesOf {P : Type} (E : Engine P) (o : Opts) (p : P) : Res (List Coord) :=
  match oriented E p with
  | .error e => .error e
  | .ok q => .ok (if o.repeatLast then E.exterior q else (E.exterior q).dropLast)

/-- One turn of the loop (variable/geom.py:470-556). -/
def element {P : Type} (E : Engine P) (o : Opts) (g : Geom P) : Res (Option (List (List Coord)) × Bool) :=
  match prepare E o g with
  | .error e => .error e
  | .ok (none, multi) => .ok (none, multi)
  | .ok (some ps, multi) =>
    match ps.mapM (nodesOf E o) with
    | .error e => .error e
    | .ok rs => .ok (some rs, multi)

/-- The coordinates made of the geometries, and the values of a data variable along with them.  `breakValue` is the attribute that announces
geometries of several parts. -/
structure Converted (δ : Type) where
  nodes : List Coord
  rows : List (List Int)
  breakValue : Option Int
  data : List δ

/-- `convert_to` for polygons (variable/geom.py:410-582, 621-636).  `max_element_coords`, geometry iterators and transformations are left out,
as is leaving out all geometries.  Left out geometries have no nodes; their elements are sliced away with their data. -/
def convert {P δ : Type} (E : Engine P) (o : Opts) (gs : List (Geom P)) (data : List δ) : Res (Converted δ) :=
  match gs.mapM (element E o) with
  | .error e => .error e
  | .ok es =>
    if es.all (·.1.isNone) then .error .notImplemented
    else
      let r := Geomc.toCoords o.pack o.startIndex o.mbv (es.filterMap (·.1))
      .ok { nodes := r.1, rows := r.2, breakValue := if gs.any (·.multi) || es.any (·.2) then some o.mbv else none,
            data := ((es.zip data).filter fun p => p.1.1.isSome).map (·.2) }

end Ocgis.GeomPrep
