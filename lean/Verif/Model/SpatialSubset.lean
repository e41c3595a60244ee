import Verif.Py

/-!
# Spatial subsets and the source field

`src/ocgis/spatial/spatial_subset.py`, with the parts of `variable/crs.py`, `spatial/wrap.py` and `variable/base.py`
that touch the x-coordinate.  Fields have a grid; the x-coordinate is the flattened array.  One process.
-/

namespace Ocgis.SpatialSubset
open Ocgis

/-- The numbers of the coordinate array: adding and subtracting 360, and the comparisons with zero and 180. -/
structure Num (α : Type) where
  plus360 : α → α
  minus360 : α → α
  negative : α → Bool
  above180 : α → Bool

/-- Coordinate systems: `CFRotatedPole`, `Spherical`, and any other one, named. -/
inductive Crs where
  | rotatedPole
  | spherical
  | other (name : String)
  deriving DecidableEq

/-- A field: its coordinate system and the memory of its x-coordinate. -/
structure Field (α : Type) where
  crs : Crs
  x : List α

/-- spatial_subset.py:29-39, a `SpatialSubsetOperation`.  `outputCrs` is `none` for `'input'`. -/
structure Op (α : Type) where
  field : Field α
  outputCrs : Option Crs
  wrap : Bool
  rotated : Option Crs
  select : Option (List Bool)

/-- A new operation object (spatial_subset.py:29-39). -/
def Op.fresh {α : Type} (field : Field α) (outputCrs : Option Crs) (wrap : Bool) : Op α :=
  { field := field, outputCrs := outputCrs, wrap := wrap, rotated := none, select := none }

/-- Arguments of `get_spatial_subset`: number of geometries, `optimized_bbox_subset`, the operation's name, how the
preparation of the geometry goes (spatial_subset.py:105-109, on a copy of the geometry), and which part of the
x-coordinate the grid's subset and `select_nearest` leave (spatial_subset.py:114-155), as a start and a stop, or the
exception they raise. -/
structure Request (α : Type) where
  geometries : Nat
  optimized : Bool
  operation : String
  prepare : Res Unit
  found : List α → Res (Nat × Nat)

/-- The x-coordinate of what is returned: a basic slice of the source's memory (numpy slicing and `copy` make
views: variable/base.py:322-334 and 846-860), or an array of its own. -/
inductive Part (α : Type) where
  | view (start stop : Nat)
  | own (xs : List α)

/-- The transformation of a coordinate array from one system to another; it makes new arrays
(spatial/base.py:567-606). -/
abbrev Reproject (α : Type) := Crs → Crs → List α → Res (List α)

/-- `xs[select] = f(xs[select])` in place. -/
def applyAt {α : Type} (f : α → α) (select : List Bool) (xs : List α) : List α :=
  List.zipWith (fun b x => if b then f x else x) select xs

/-- crs.py:357-376 for a grid: the coordinates are unwrapped. -/
def unwrapped {α : Type} (N : Num α) (xs : List α) : Bool := xs.any N.above180

/-- spatial/wrap.py:54-72 on one element. -/
def wrapOne {α : Type} (N : Num α) (x : α) : α := if N.above180 x then N.minus360 x else x

/-- Is a position inside the slice? -/
def inside (start stop i : Nat) : Bool := decide (start ≤ i) && decide (i < stop)

/-- The slice of the memory a view reads. -/
def window {α : Type} (start stop : Nat) (xs : List α) : List α := (xs.take stop).drop start

/-- The values of what is returned, given the source's memory. -/
def Part.values {α : Type} (mem : List α) : Part α → List α
  | .view start stop => window start stop mem
  | .own xs => xs

/-- spatial_subset.py:90-101. -/
def validate {α : Type} (r : Request α) : Res Unit :=
  if r.geometries ≠ 1 then .error .valueError
  else if r.optimized && decide (r.operation ≠ "intersects") then .error .valueError
  else r.prepare

/-- spatial_subset.py:264-277 (`_prepare_target_`).  `env.DEFAULT_COORDSYS` is taken to be spherical. -/
def prepareTarget {α : Type} (N : Num α) (reproject : Reproject α) (op : Op α) : Op α × Res Unit :=
  match op.field.crs with
  | .rotatedPole =>
    let op1 := { op with rotated := some .rotatedPole }
    match reproject .rotatedPole .spherical op.field.x with
    | .error e => (op1, .error e)
    | .ok x => ({ op1 with field := { crs := .spherical, x := x } }, .ok ())
  | .spherical =>
    if unwrapped N op.field.x then
      let select := op.field.x.map N.negative
      if select.any id then
        ({ op with field := { op.field with x := applyAt N.plus360 select op.field.x }, select := some select }, .ok ())
      else (op, .ok ())
    else (op, .ok ())
  | .other _ => (op, .ok ())

/-- spatial_subset.py:116-148: the operations that are known. -/
def known (operation : String) : Bool := ["intersects", "clip", "intersection"].contains operation

/-- spatial_subset.py:258-262 (`_finalize_target`). -/
def finalizeTarget {α : Type} (N : Num α) (op : Op α) : Op α :=
  match op.select with
  | none => op
  | some select =>
    { op with field := { op.field with x := applyAt N.minus360 select op.field.x }, select := none }

/-- spatial_subset.py:157-159: back to the rotated pole. -/
def rotateBack {α : Type} (reproject : Reproject α) (op : Op α) (sub : Part α) : Res (Crs × Part α) :=
  match op.rotated, op.outputCrs with
  | some crs, none => (reproject op.field.crs crs (sub.values op.field.x)).map fun xs => (crs, .own xs)
  | _, _ => .ok (op.field.crs, sub)

/-- spatial_subset.py:161-163 with 200-215 and crs.py:323-349: wrap what is returned, in place. -/
def wrapSub {α : Type} (N : Num α) (op : Op α) (crs : Crs) (sub : Part α) : Op α × Part α :=
  if op.wrap && decide (crs = .spherical) && unwrapped N (sub.values op.field.x) then
    match sub with
    | .view start stop =>
      ({ op with field := { op.field with
          x := op.field.x.zipIdx.map fun p => if inside start stop p.2 then wrapOne N p.1 else p.1 } },
        .view start stop)
    | .own xs => (op, .own (xs.map (wrapOne N)))
  else (op, sub)

/-- spatial_subset.py:165-167 with 41-51. -/
def updateCrs {α : Type} (reproject : Reproject α) (op : Op α) (crs : Crs) (sub : Part α) : Res (Part α) :=
  match op.outputCrs with
  | none => .ok sub
  | some out =>
    if out ≠ op.field.crs then (reproject crs out (sub.values op.field.x)).map .own else .ok sub

/-- spatial_subset.py:53-175 (`get_spatial_subset`): the operation object afterwards, with the source field in it, and
what is returned or raised. -/
def getSubset {α : Type} (N : Num α) (reproject : Reproject α) (op : Op α) (r : Request α) : Op α × Res (Part α) :=
  match validate r with
  | .error e => (op, .error e)
  | .ok () =>
    match prepareTarget N reproject op with
    | (op1, .error e) => (op1, .error e)
    | (op1, .ok ()) =>
      if known r.operation then
        match r.found op1.field.x with
        | .error e => (op1, .error e)
        | .ok (start, stop) =>
          match rotateBack reproject op1 (.view start stop) with
          | .error e => (op1, .error e)
          | .ok (crs, sub) =>
            let (op2, sub) := wrapSub N op1 crs sub
            match updateCrs reproject op2 crs sub with
            | .error e => (op2, .error e)
            | .ok sub => (finalizeTarget N op2, .ok sub)
      else (op1, .error .valueError)

/-- One subset after the other with the same object; the results in order. -/
def runAll {α : Type} (N : Num α) (reproject : Reproject α) (op : Op α) : List (Request α) → Op α × List (Res (Part α))
  | [] => (op, [])
  | r :: rs =>
    let p := getSubset N reproject op r
    let q := runAll N reproject p.1 rs
    (q.1, p.2 :: q.2)

end Ocgis.SpatialSubset
