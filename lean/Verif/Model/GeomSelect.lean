import Verif.Py
import Verif.Model.Broadcast
/-!
# Selecting from geometry variables and grids by a geometry

Geometry variables have one or two dimensions; one of one dimension is written as one of a single column with the flag
`oneD`.  Elements are addressed by row and column.  `shapely` and `rtree` are parameters.  The cascade of the mask to
the other variables of the field is the subject of C33 and C34 and is left out.
-/
namespace Ocgis.GeomSelect

/-- The operations of `shapely` and `rtree` that the selection uses.  `parts` is `iter(geometry)`: `none` when it raises
`TypeError`.  `rtree` gives the positions that `index.intersection` yields after the geometries were inserted in order
(spatial/index.py:18-32, 86-87). -/
structure Shapely (G : Type) where
  intersects : G → G → Bool
  touches : G → G → Bool
  intersection : G → G → G
  distance : G → G → Rat
  centroid : G → G
  buffer : G → G
  parts : G → Option (List G)
  rtree : List G → G → List Nat

/-- A geometry variable: its shape, geometries and mask (`None` when there is no mask). -/
structure GVar (G : Type) where
  oneD : Bool
  nrow : Nat
  ncol : Nat
  geom : Nat → Nat → G
  mask : Option (Nat → Nat → Bool)

/-- Rows and columns `[r0, r1) x [c0, c1)`. -/
structure Rect where
  r0 : Nat
  r1 : Nat
  c0 : Nat
  c1 : Nat
  deriving DecidableEq, Repr

/-- `variable.get_mask(create=True)` at one element. -/
def GVar.masked {G : Type} (v : GVar G) (r c : Nat) : Bool :=
  match v.mask with
  | none => false
  | some m => m r c

/-- `array.reshape(-1)`, row by row. -/
def flat {α : Type} (nrow ncol : Nat) (f : Nat → Nat → α) : List α :=
  (List.range (nrow * ncol)).map fun k => f (k / ncol) (k % ncol)

/-- The array whose `reshape(-1)` is the list. -/
def unflat (ncol : Nat) (l : List Bool) : Nat → Nat → Bool := fun r c => l.getD (r * ncol + c) true

/-- `np.ma.array(np.arange(mask.size), mask=mask).compressed()` (variable/geom.py:1411-1412). -/
def globalIndex (mask : List Bool) : List Nat := (List.range mask.length).filter fun k => !mask.getD k true

/-- `SpatialIndex.iter_intersects(geometry, arr, keep_touches)` (spatial/index.py:34-70). -/
def indexIntersects {G : Type} (s : Shapely G) (g : G) (arr : List G) (keep : Bool) : List Nat :=
  ((s.parts g).getD [g]).flatMap fun p =>
    (s.rtree arr p).filter fun k =>
      match arr[k]? with
      | none => false
      | some x => s.intersects p x && (keep || !s.touches p x)

/-- The mask value computed for one geometry without an index (variable/geom.py:1427-1432). -/
def excluded {G : Type} (s : Shapely G) (g : G) (keep : Bool) (x : G) : Bool :=
  if s.intersects g x then !keep && s.touches g x else true

/-- `geometryvariable_get_mask_from_intersects(gvar, geometry, use_spatial_index, keep_touches, original_mask)`
(variable/geom.py:1401-1435). -/
def maskFromIntersects {G : Type} (s : Shapely G) (v : GVar G) (g : G) (useIndex keep : Bool)
    (original : Option (Nat → Nat → Bool)) : Nat → Nat → Bool :=
  let mask := flat v.nrow v.ncol (original.getD v.masked)
  let fill := mask.map fun _ => true
  let index := globalIndex mask
  let values := flat v.nrow v.ncol v.geom
  let target := index.filterMap fun k => values[k]?
  let filled :=
    if useIndex then
      (indexIntersects s g target keep).foldl (fun f k => f.set (index.getD k 0) false) fill
    else
      (target.zipIdx).foldl (fun f xk => f.set (index.getD xk.2 0) (excluded s g keep xk.1)) fill
  unflat v.ncol filled

/-! ## The slice -/

/-- `local_slice` of `get_masking_slice` (variable/geom.py:1244-1254): none when everything is masked; when nothing is
masked the second element of the shape is read, which a one-dimensional array does not have. -/
def localSlice (oneD : Bool) (nrow ncol : Nat) (m : Nat → Nat → Bool) : Res (Option Rect) :=
  let arr := (List.range nrow).map fun r => (List.range ncol).map fun c => m r c
  if arr.all fun row => row.all id then .ok none
  else if !(arr.any fun row => row.any id) then
    if oneD then .error .indexError else .ok (some ⟨0, nrow, 0, ncol⟩)
  else
    match Ocgis.Array.trim id ncol arr with
    | .error e => .error e
    | .ok (_, (a, b), (c, d)) => .ok (some ⟨a, b, c, d⟩)

/-- What one process holds: the position of its first element in the whole array, and its part (`bounds_local`). -/
structure Rank (G : Type) where
  r0 : Nat
  c0 : Nat
  var : GVar G

/-- Add the offsets (variable/geom.py:1256-1262). -/
def shift (r0 c0 : Nat) (q : Rect) : Rect := ⟨q.r0 + r0, q.r1 + r0, q.c0 + c0, q.c1 + c0⟩

/-- Minimum and maximum over both ends of the gathered slices (variable/geom.py:1271-1274). -/
def hull (a b : Rect) : Rect :=
  ⟨min (min a.r0 a.r1) (min b.r0 b.r1), max (max a.r0 a.r1) (max b.r0 b.r1),
   min (min a.c0 a.c1) (min b.c0 b.c1), max (max a.c0 a.c1) (max b.c0 b.c1)⟩

/-- `global_slice` of `get_masking_slice` (variable/geom.py:1264-1283), the same on every process.  An error on one
process is an error of the whole. -/
def globalSlice {G : Type} (parts : List (Rank G × (Nat → Nat → Bool))) : Res Rect := do
  let locals ← parts.mapM fun p => do
    let l ← localSlice p.1.var.oneD p.1.var.nrow p.1.var.ncol p.2
    .ok (l.map (shift p.1.r0 p.1.c0))
  match locals.filterMap id with
  | [] => .error .emptySubset
  | q :: rest => .ok (rest.foldl hull q)

/-- The part of the global slice that lies on a process, in its own numbering; `none` when there is nothing
(`get_distributed_slice`, the subject of C05, and `__getitem__` on one process; variable/geom.py:1288-1294). -/
def localPart {G : Type} (q : Rect) (p : Rank G) : Option Rect :=
  let l : Rect := ⟨max q.r0 p.r0 - p.r0, min q.r1 (p.r0 + p.var.nrow) - p.r0,
                   max q.c0 p.c0 - p.c0, min q.c1 (p.c0 + p.var.ncol) - p.c0⟩
  if l.r0 < l.r1 && l.c0 < l.c1 then some l else none

/-- A slice of an array. -/
def sub {α : Type} (q : Rect) (f : Nat → Nat → α) : Nat → Nat → α := fun r c => f (q.r0 + r) (q.c0 + c)

/-- A slice of a geometry variable. -/
def GVar.slice {G : Type} (v : GVar G) (q : Rect) : GVar G :=
  ⟨v.oneD, q.r1 - q.r0, q.c1 - q.c0, sub q v.geom, v.mask.map (sub q)⟩

/-- `variable.set_mask(mask, update=True)` (variable/base.py:1036-1047). -/
def GVar.updateMask {G : Type} (v : GVar G) (m : Nat → Nat → Bool) : GVar G :=
  { v with mask := some fun r c => m r c || v.masked r c }

/-- One process's part of the result of `get_intersects`, with its position in the global slice
(variable/geom.py:699-705). -/
def selectLocal {G : Type} (q : Rect) (p : Rank G) (m : Nat → Nat → Bool) : Option (Rank G) :=
  (localPart q p).map fun l => ⟨p.r0 + l.r0 - q.r0, p.c0 + l.c0 - q.c0, (p.var.slice l).updateMask (sub l m)⟩

/-- `GeometryVariable.get_intersects(geometry, use_spatial_index, keep_touches, original_mask, return_slice=True)`
(variable/geom.py:679-716) on the processes `ps`, none of which is empty; the hint mask is one array for each process. -/
def getIntersects {G : Type} (s : Shapely G) (ps : List (Rank G)) (g : G) (useIndex keep : Bool)
    (original : Option (Nat → Nat → Bool)) : Res (List (Option (Rank G)) × Rect) := do
  let ms := ps.map fun p => (p, maskFromIntersects s p.var g useIndex keep
    (original.map fun m r c => m (p.r0 + r) (p.c0 + c)))
  let q ← globalSlice ms
  .ok (ms.map fun pm => selectLocal q pm.1 pm.2, q)

/-- A variable that is not distributed. -/
def whole {G : Type} (v : GVar G) : List (Rank G) := [⟨0, 0, v⟩]

/-! ## Intersections -/

/-- The loop of `get_intersection` (variable/geom.py:761-763): the elements that are not masked. -/
def clip {G : Type} (s : Shapely G) (g : G) (v : GVar G) : GVar G :=
  { v with geom := fun r c => if v.masked r c then v.geom r c else s.intersection (v.geom r c) g }

/-- The result of `get_intersection`, the slice when one is asked for, and the geometries of the source afterwards. -/
structure Clipped (G : Type) where
  result : List (Option (Rank G))
  slice : Option Rect
  source : List (Rank G)

/-- The source after the geometries were changed in place: the result's arrays are views of the source's (C85), so a
selected element of the source is the one of the result. -/
def written {G : Type} (q : Rect) (p : Rank G) (out : Option (Rank G)) : Rank G :=
  match out, localPart q p with
  | some o, some l =>
    { p with var := { p.var with geom := fun r c =>
        if l.r0 ≤ r ∧ r < l.r1 ∧ l.c0 ≤ c ∧ c < l.c1 then o.var.geom (r - l.r0) (c - l.c0) else p.var.geom r c } }
  | _, _ => p

/-- `GeometryVariable.get_intersection(geometry, inplace, intersects_check, return_slice, use_spatial_index,
keep_touches, original_mask)` (variable/geom.py:718-764).  Without the check and with the slice the object is a tuple. -/
def getIntersection {G : Type} (s : Shapely G) (ps : List (Rank G)) (g : G)
    (inplace check returnSlice useIndex keep : Bool) (original : Option (Nat → Nat → Bool)) : Res (Clipped G) :=
  if check then do
    let (out, q) ← getIntersects s ps g useIndex keep original
    let out' := out.map fun o => o.map fun p => { p with var := clip s g p.var }
    .ok ⟨out', if returnSlice then some q else none,
      if inplace then (ps.zip out').map fun po => written q po.1 po.2 else ps⟩
  else if returnSlice then .error .attributeError
  else
    let out := ps.map fun p => { p with var := clip s g p.var }
    .ok ⟨out.map some, none, if inplace then out else ps⟩

/-! ## The nearest geometry and buffers -/

/-- `distances[distance] = index` (variable/geom.py:813-814). -/
def insertDistance (d : Rat) (i : Nat × Nat) : List (Rat × (Nat × Nat)) → List (Rat × (Nat × Nat))
  | [] => [(d, i)]
  | (e, j) :: rest => if e = d then (e, i) :: rest else (e, j) :: insertDistance d i rest

/-- The entry of the smallest key. -/
def minEntry : List (Rat × (Nat × Nat)) → Option (Rat × (Nat × Nat))
  | [] => none
  | e :: rest =>
    match minEntry rest with
    | none => some e
    | some f => if e.1 ≤ f.1 then some e else some f

/-- `iter_array(value, mask=mask)` (util/helpers.py:861-902): the positions that are not masked, row by row. -/
def positions {G : Type} (v : GVar G) : List (Nat × Nat) :=
  ((List.range (v.nrow * v.ncol)).map fun k => (k / v.ncol, k % v.ncol)).filter fun i => !v.masked i.1 i.2

/-- `GeometryVariable.get_nearest(target, return_indices=True)` (variable/geom.py:803-821): the index.  `min` of no keys
raises. -/
def getNearest {G : Type} (s : Shapely G) (v : GVar G) (target : G) : Res (Nat × Nat) :=
  match minEntry ((positions v).foldl
      (fun d i => insertDistance (s.distance (s.centroid target) (v.geom i.1 i.2)) i d) []) with
  | none => .error .valueError
  | some e => .ok e.2

/-- The value of `GeometryVariable.get_buffer()` (variable/geom.py:646-677).  Without a mask `iter_array(None)` is the
iteration over an array of one element (util/helpers.py:862-870): only the first element is written, and for two
dimensions that is a row. -/
def getBuffer {G : Type} (s : Shapely G) (v : GVar G) : Res (Nat → Nat → Option G) :=
  match v.mask with
  | some m => .ok fun r c => if m r c then none else some (s.buffer (v.geom r c))
  | none =>
    if v.oneD then .ok fun r c => if r = 0 then some (s.buffer (v.geom r c)) else none
    else .error .attributeError

/-! ## The operation on a field -/

/-- The argument `keep_touches`. -/
inductive Touch where
  | yes
  | no
  | auto
  deriving DecidableEq, Repr

/-- The truth of the argument. -/
def Touch.truthy : Touch → Bool
  | .no => false
  | _ => true

/-- The operations of `get_spatial_subset`. -/
inductive Op where
  | intersects
  | clip
  deriving DecidableEq, Repr

/-- `SpatialSubsetOperation.get_spatial_subset(operation, geom, keep_touches, use_spatial_index)` on a field without a
grid (spatial/spatial_subset.py:116-138): the geometry variable of the result. -/
def subsetGeoms {G : Type} (s : Shapely G) (ps : List (Rank G)) (op : Op) (g : G) (useIndex : Bool) (touch : Touch) :
    Res (List (Option (Rank G))) :=
  match op with
  | .intersects => do
    let keep := if touch = .auto then false else touch.truthy
    let (out, _) ← getIntersects s ps g useIndex keep none
    .ok out
  | .clip => do
    let out ← getIntersection s ps g false true false useIndex touch.truthy none
    .ok out.result

/-! ## Grids -/

/-- A structured grid: its shape, mask, and the geometries of its cells. -/
structure Grid (G : Type) where
  nrow : Nat
  ncol : Nat
  cell : Nat → Nat → G
  mask : Option (Nat → Nat → Bool)

/-- The mask of a grid, false when there is none. -/
def Grid.masked {G : Type} (v : Grid G) (r c : Nat) : Bool :=
  match v.mask with
  | none => false
  | some m => m r c

/-- Is some element of the array true? -/
def anyTrue (nrow ncol : Nat) (m : Nat → Nat → Bool) : Bool := (flat nrow ncol m).any id

/-- The result of a selection from a grid: the slice, the new mask, the geometries of an intersection (`0` where nothing
was selected), and the caller's mask array afterwards. -/
structure GridOut (G : Type) where
  slice : Rect
  mask : Option (Nat → Nat → Bool)
  geom : Option (Nat → Nat → Option G)
  hint : Option (Nat → Nat → Bool)

/-- The test of `GeometryProcessor.iter_intersects` (variable/geom.py:177-185) on a geometry. -/
def selects {G : Type} (s : Shapely G) (g : G) (keep : Bool) (x : G) : Bool :=
  s.intersects g x && (keep || !s.touches g x)

/-- `Grid.get_spatial_subset_operation(op, geom, original_mask, keep_touches, optimized_bbox_subset, return_slice=True)`
on one process (spatial/grid.py:599-724).  `near` is the union of the hints of the parts of the geometry
(spatial/grid.py:639-653, the subject of C23 and C61).  `original_mask` is overwritten in place when it is given.
`set_mask` replaces the mask of the grid (spatial/base.py:251-260). -/
def gridSubset {G : Type} (s : Shapely G) (v : Grid G) (op : Op) (g : G) (near : Nat → Nat → Bool)
    (original : Option (Nat → Nat → Bool)) (keep optimized : Bool) : Res (GridOut G) := do
  let first : Nat → Nat → Bool := match original with
    | some m => m
    | none => fun r c => if optimized then !near r c else v.masked r c || !near r c
  if optimized then
    let mask := if anyTrue v.nrow v.ncol first then some first else v.mask
    let q ← (localSlice false v.nrow v.ncol first).bind fun o => match o with
      | none => .error .emptySubset
      | some q => .ok q
    let sliced := mask.map (sub q)
    let final := match v.mask, sliced with
      | none, some m => if anyTrue (q.r1 - q.r0) (q.c1 - q.c0) m then some m else none
      | _, _ => sliced
    .ok ⟨q, final, none, original⟩
  else
    let fill : Nat → Nat → Bool := fun r c => if first r c then true else !selects s g keep (v.cell r c)
    let q ← (localSlice false v.nrow v.ncol fill).bind fun o => match o with
      | none => .error .emptySubset
      | some q => .ok q
    let sliced := sub q fill
    let mask := if anyTrue (q.r1 - q.r0) (q.c1 - q.c0) sliced then some sliced else v.mask.map (sub q)
    let geom : Option (Nat → Nat → Option G) := if op = .clip then
        some (sub q fun r c => if fill r c then none else some (s.intersection (v.cell r c) g))
      else none
    .ok ⟨q, mask, geom, original.map fun _ => fill⟩

end Ocgis.GeomSelect
