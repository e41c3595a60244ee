import Verif.Model.GeomSelect
/-!
# Selecting from points and polygons given by node coordinates

`AbstractGeometryCoordinates.get_spatial_subset_operation` on one process.  The geometries of the elements are those of
`get_geometry_iterable` (the subject of C51 and C52); `shapely` is the parameter of C87 together with `Frame`.  There are as many
nodes of points as elements (numpy's broadcasting of arrays of other lengths is left out), and a mask given by the caller
has one value for each element.  The cascade of the mask to the other variables of the field is the subject of C33 and
C34 and is left out.
-/
namespace Ocgis.UnstructSelect
open Ocgis.GeomSelect

/-- A bounding box. -/
structure Box where
  minx : Rat
  miny : Rat
  maxx : Rat
  maxy : Rat
  deriving DecidableEq, Repr

/-- What else is used of `shapely`: `geom.bounds`, and the least and largest third coordinate of `geom.exterior`: `none`
when the geometry has no third coordinate, `some none` when it has no exterior. -/
structure Frame (G : Type) where
  bounds : G → Box
  zbounds : G → Option (Option (Rat × Rat))

/-- Points (`PointGC`) or polygons: the number of elements, their geometries, the coordinates of the nodes (used for
points only), the mask of the object, and whether some other process has masked values. -/
structure Coords (G : Type) where
  points : Bool
  n : Nat
  geom : Nat → G
  x : List Rat
  y : List Rat
  z : Option (List Rat)
  mask : Option (List Bool)
  elsewhere : Bool

/-- The arguments of the operation. -/
structure Args where
  op : Op
  original : Option (List Bool)
  keep : Bool
  optimized : Bool
  applySlice : Bool
  noTouch : Bool
  deriving DecidableEq

/-- One value of `arr_intersects_bounds` (spatial/grid.py:1089-1097). -/
def within (keep : Bool) (lo hi v : Rat) : Bool :=
  if keep then decide (lo ≤ v) && decide (v ≤ hi) else decide (lo < v) && decide (v < hi)

/-- `arr_intersects_bounds(arr, lower, upper, keep_touches)` (spatial/grid.py:1078-1101) without a section. -/
def arrIntersects (arr : List Rat) (lo hi : Rat) (keep : Bool) : Res (List Bool) :=
  if lo ≤ hi then .ok (arr.map (within keep lo hi)) else .error .assertionError

/-- `np.logical_and(touches_x, touches_y)` at one point (spatial/geomc.py:829, spatial/grid.py:1085-1087): both
coordinates are the lower ones of the box, or both the upper ones. -/
def atCorner (b : Box) (x y : Rat) : Bool :=
  (decide (x = b.minx) && decide (y = b.miny)) || (decide (x = b.maxx) && decide (y = b.maxy))

/-- The same with the third coordinate (spatial/geomc.py:841). -/
def atCorner3 (b : Box) (lo hi x y z : Rat) : Bool :=
  (decide (x = b.minx) && decide (y = b.miny) && decide (z = lo)) ||
    (decide (x = b.maxx) && decide (y = b.maxy) && decide (z = hi))

/-- The part of `get_xyz_select` for the third coordinate (spatial/geomc.py:832-842).  An object without a third
coordinate raises. -/
def zSelect (x y : List Rat) (z : Option (List Rat)) (b : Box) (lo hi : Rat) (keep noTouch : Bool) (sel : List Bool) :
    Res (List Bool) :=
  match z with
  | none => if noTouch then .error .attributeError else if lo ≤ hi then .error .typeError else .error .assertionError
  | some zs =>
    match arrIntersects zs lo hi keep with
    | .error e => .error e
    | .ok sz =>
      if noTouch && (x.zip (y.zip zs)).any (fun q => atCorner3 b lo hi q.1 q.2.1 q.2.2) then .error .noTouching
      else .ok (List.zipWith and sel sz)

/-- `get_xyz_select(x, y, bounds, z, z_bounds, keep_touches, no_touching)` (spatial/geomc.py:818-845).  `vm.abort` with
`NoTouching` is the error of that name. -/
def xyzSelect (x y : List Rat) (z : Option (List Rat)) (b : Box) (zb : Option (Rat × Rat)) (keep noTouch : Bool) :
    Res (List Bool) :=
  match arrIntersects x b.minx b.maxx keep with
  | .error e => .error e
  | .ok sx =>
    match arrIntersects y b.miny b.maxy keep with
    | .error e => .error e
    | .ok sy =>
      match zb with
      | none =>
        if noTouch && (x.zip y).any (fun q => atCorner b q.1 q.2) then .error .noTouching
        else .ok (List.zipWith and sx sy)
      | some (lo, hi) => zSelect x y z b lo hi keep noTouch (List.zipWith and sx sy)

/-- The selection by the box of one part of the geometry (spatial/geomc.py:544-551). -/
def partSelect {G : Type} (f : Frame G) (c : Coords G) (keep noTouch : Bool) (p : G) : Res (List Bool) :=
  match f.zbounds p with
  | none => xyzSelect c.x c.y c.z (f.bounds p) none keep noTouch
  | some none => .error .attributeError
  | some (some zb) => xyzSelect c.x c.y c.z (f.bounds p) (some zb) keep noTouch

/-- The loop over the parts (spatial/geomc.py:543-556): the boxes that have the point.  Without parts the name
`hint_mask` is not bound. -/
def boxes {G : Type} (f : Frame G) (c : Coords G) (keep noTouch : Bool) : List G → Res (List Bool)
  | [] => .error .unboundLocal
  | [p] => partSelect f c keep noTouch p
  | p :: q :: rest =>
    match partSelect f c keep noTouch p with
    | .error e => .error e
    | .ok a =>
      match boxes f c keep noTouch (q :: rest) with
      | .error e => .error e
      | .ok b => .ok (List.zipWith or a b)

/-- `np.logical_or(mask, hint_mask)` for the object's own mask, if it has one (spatial/geomc.py:562-564). -/
def orOwn (mask : Option (List Bool)) (hint : List Bool) : List Bool :=
  match mask with
  | none => hint
  | some m => List.zipWith or m hint

/-- `original_mask` before the geometries are looked at (spatial/geomc.py:531-566). -/
def startMask {G : Type} (s : Shapely G) (f : Frame G) (c : Coords G) (g : G) (a : Args) : Res (List Bool) :=
  if c.points then
    match a.original with
    | some m => .ok m
    | none =>
      match boxes f c a.keep a.noTouch ((s.parts g).getD [g]) with
      | .error e => .error e
      | .ok near =>
        let hint := near.map not
        .ok (if a.optimized then hint else orOwn c.mask hint)
  else .ok (List.replicate c.n false)

/-- `use_mask and has_mask and has_masked_values` (spatial/geomc.py:363-370): the object has a mask, and some process has
masked values. -/
def Coords.usesMask {G : Type} (c : Coords G) : Bool :=
  match c.mask with
  | none => false
  | some m => m.any id || c.elsewhere

/-- `is_masked` of `get_geometry_iterable(hint_mask=hint)` (spatial/geomc.py:353-373). -/
def hidden {G : Type} (c : Coords G) (hint : List Bool) (k : Nat) : Bool :=
  c.usesMask && (orOwn c.mask hint).getD k false

/-- The value that the loop writes for one element, negated (spatial/geomc.py:582-585, variable/geom.py:177-185). -/
def meets {G : Type} (s : Shapely G) (c : Coords G) (g : G) (keep : Bool) (hint : List Bool) (k : Nat) : Bool :=
  !hidden c hint k && selects s g keep (c.geom k)

/-- `fill_mask` after the loop over the geometries (spatial/geomc.py:576-587). -/
def fillMask {G : Type} (s : Shapely G) (c : Coords G) (g : G) (keep : Bool) (first : List Bool) : List Bool :=
  if first.all id then first else (List.range c.n).map fun k => !meets s c g keep first k

/-- The geometry variable of an intersection: none was asked for; it has no value; or its values, `none` for masked
elements. -/
inductive Clipped (G : Type) where
  | notAsked
  | noValue
  | values (l : List (Option G))
  deriving DecidableEq

/-- The result: the elements of the object returned, in order (none when it is empty), its mask, the geometry variable of
an intersection, the slice, and the caller's mask array afterwards. -/
structure Out (G : Type) where
  kept : List Nat
  mask : Option (List Bool)
  geom : Clipped G
  slice : List Bool
  hint : Option (List Bool)

/-- `array[slice]` for a boolean slice. -/
def pick {α : Type} (sel : List Bool) (l : List α) : List α :=
  (l.zip sel).filterMap fun q => if q.2 then some q.1 else none

/-- The geometry variable of an intersection before it is sliced (spatial/geomc.py:577-594). -/
def clipValues {G : Type} (s : Shapely G) (c : Coords G) (g : G) (first fill : List Bool) : Clipped G :=
  if first.all id then .noValue
  else .values ((List.range c.n).map fun k => if fill.getD k true then none else some (s.intersection (c.geom k) g))

/-- Slicing the geometry variable with the collection it is in (spatial/geomc.py:595-601). -/
def Clipped.pick {G : Type} (sel : List Bool) : Clipped G → Clipped G
  | .values l => .values (UnstructSelect.pick sel l)
  | v => v

/-- `get_spatial_subset_operation(op, geom, original_mask, keep_touches, optimized_bbox_subset, apply_slice, no_touching,
return_slice=True)` (spatial/geomc.py:503-633).  `fill_mask` is the array of the caller when points are selected from
with a mask given; for polygons a new array takes its place. -/
def subset {G : Type} (s : Shapely G) (f : Frame G) (c : Coords G) (g : G) (a : Args) : Res (Out G) :=
  if a.optimized && decide (a.op = .clip) then .error .valueError
  else
    match startMask s f c g a with
    | .error e => .error e
    | .ok first =>
      if a.optimized then
        let sel := first.map not
        .ok ⟨pick sel (List.range c.n), c.mask.map (pick sel), .notAsked, sel, a.original⟩
      else
        let fill := fillMask s c g a.keep first
        let sel := fill.map not
        let geom := if a.op = .clip then clipValues s c g first fill else .notAsked
        let hint := if c.points then a.original.map fun _ => fill else a.original
        if a.applySlice then .ok ⟨pick sel (List.range c.n), c.mask.map (pick sel), geom.pick sel, sel, hint⟩
        else .ok ⟨List.range c.n, c.mask, geom, sel, hint⟩

end Ocgis.UnstructSelect
