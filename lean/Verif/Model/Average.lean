import Verif.Py
import Verif.Model.Broadcast
/-!
# Unions of geometries and spatial averages

`GeometryVariable.area`, `weights` and `get_unioned` (variable/geom.py), as called by `_update_aggregation_wrapping_crs_`
(ops/engine.py:592) for `aggregate=True`.  Numbers are rationals.  Geometries belong to a type `G`; their areas, their
parts and the union of a list are those of a `Shapely` library, a parameter.  Arrays are those of `Verif.Model.Broadcast`.
Dimension names of a variable are different.  The new dimension is an object of length one, as by default; a string
or another length (variable/geom.py:899-901) is not modelled.
-/
namespace Ocgis.Average
open Ocgis.Array

/-- A dimension: name and length. -/
structure Dim where
  name : String
  size : Nat
  deriving DecidableEq, Repr

/-- What `shapely` does: the area of a geometry, the parts over which the loop of variable/geom.py:935-940 runs (the
elements of a multi-polygon or multi-point, otherwise the geometry itself) and `cascaded_union`. -/
structure Shapely (G : Type) where
  area : G → Rat
  parts : G → List G
  union : List G → G

/-- A geometry variable: dimensions, geometries and mask by multi-index (no mask is a mask of falses). -/
structure GVar (G : Type) where
  dims : List Dim
  geom : List Nat → G
  masked : List Nat → Bool

/-- A variable with numbers: name, dimensions, value and mask (`none` is no mask). -/
structure Var where
  name : String
  dims : List Dim
  value : Arr Rat
  mask : Option (List Nat → Bool)

/-- Names of dimensions (`get_dimension_names`, base.py:126-136). -/
def names (ds : List Dim) : List String := ds.map (·.name)

/-- Lengths of dimensions (`get_dimension_lengths`, variable/base.py:2397-2399). -/
def sizes (ds : List Dim) : List Nat := ds.map (·.size)

/-- `itertools.product(*[list(range(n)) for n in shape])`: the multi-indices in row-major order. -/
def indices : List Nat → List (List Nat)
  | [] => [[]]
  | n :: ns => (List.range n).flatMap fun i => (indices ns).map (i :: ·)

/-- `Variable.get_masked_value()` (variable/base.py:932-943): a masked element is `none`. -/
def maskedValue (v : Var) : Arr (Option Rat) :=
  ⟨v.value.shape, fun i => if (v.mask.elim false fun m => m i) then none else some (v.value.elem i)⟩

/-! ## Areas and weights -/

/-- `GeometryVariable.area.data` (variable/geom.py:237-246): the ones are overwritten with areas where the geometry is
not masked. -/
def areaData {G : Type} (S : Shapely G) (g : GVar G) (i : List Nat) : Rat := if g.masked i then 1 else S.area (g.geom i)

/-- `area.data[area.data == 0] = 1.0` (variable/geom.py:320). -/
def weightData {G : Type} (S : Shapely G) (g : GVar G) (i : List Nat) : Rat :=
  if areaData S g i = 0 then 1 else areaData S g i

/-- The maximum of a list of numbers, `none` (masked) for the empty list. -/
def maxOf : List Rat → Option Rat
  | [] => none
  | x :: xs => some (xs.foldl max x)

/-- `GeometryVariable.weights` (variable/geom.py:319-321): `area / area.max()`; masked elements stay masked, and the
maximum is that of the others. -/
def weights {G : Type} (S : Shapely G) (g : GVar G) : Arr (Option Rat) :=
  let top := maxOf (((indices (sizes g.dims)).filter fun i => !g.masked i).map (weightData S g))
  ⟨sizes g.dims, fun i => if g.masked i then none else top.map fun m => weightData S g i / m⟩

/-! ## `np.ma.average` -/

/-- Sum of the unmasked elements. -/
def sumSome (l : List (Option Rat)) : Rat := (l.filterMap id).sum

/-- `np.ma.average(a, weights=w)` of flat arrays of one length: the weights of masked elements are multiplied by zero, the
products are masked where either is, sums skip masked elements, and the sum of masked elements only is masked. -/
def averageFlat (a w : List (Option Rat)) : Option Rat :=
  let wgt := (a.zip w).map fun (x, y) => y.map fun y => if x.isNone then y * 0 else y
  let prod := (a.zip wgt).map fun (x, y) => x.bind fun x => y.map fun y => x * y
  if prod.all (·.isNone) then none else some (sumSome prod / sumSome wgt)

/-- `np.ma.average(a, weights=w)`: a `TypeError` if the shapes differ. -/
def average (a w : Arr (Option Rat)) : Res (Option Rat) :=
  if a.shape ≠ w.shape then .error .typeError
  else .ok (averageFlat ((indices a.shape).map a.elem) ((indices w.shape).map w.elem))

/-! ## The union -/

/-- `self[dslc]` followed by `flatten()[0]` for the value and the mask (variable/geom.py:924-931): the indices given for
the unioned dimensions, and the first element along all others. -/
def firstAt {G : Type} (g : GVar G) (over : List String) (idx : List Nat) : List Nat :=
  g.dims.map fun d => if over.contains d.name then idx.getD (over.idxOf d.name) 0 else 0

/-- The geometries to union for one destination, masked ones skipped, and multi-geometries taken apart
(variable/geom.py:922-940).  The destination is not used. -/
def toUnion {G : Type} (S : Shapely G) (g : GVar G) (over : List String) (_dst : List Nat) : List G :=
  let lengths := over.map fun n => ((g.dims.find? fun d => d.name == n).map (·.size)).getD 0
  (((indices lengths).map (firstAt g over)).filter fun i => !g.masked i).flatMap fun i => S.parts (g.geom i)

/-- The dimensions of the unioned geometry (variable/geom.py:902-906). -/
def newDims (ds : List Dim) (over : List String) (u : Dim) : List Dim := (ds.filter fun d => !over.contains d.name) ++ [u]

/-- The unioned geometry variable on one process (variable/geom.py:908-951): nothing is masked. -/
def unioned {G : Type} (S : Shapely G) (g : GVar G) (over : List String) (u : Dim) : GVar G :=
  ⟨newDims g.dims over u, fun dst => S.union (toUnion S g over dst), fun _ => false⟩

/-! ## The spatial average of one variable -/

/-- `get_swap_chain(dimension_names, names_to_slice_all)` (util/helpers.py:699-712) as called at variable/geom.py:988.
The first argument is a tuple (base.py:136), and so is its copy: the first assignment to an element is a `TypeError`, so
the chain is empty if it is found at all. -/
def swapTuple (actual desired : List String) : Res Unit :=
  if !(actual.all desired.contains && desired.all actual.contains) then .error .assertionError
  else if actual.length ≤ desired.length ∧ desired.take actual.length = actual then .ok ()
  else .error .typeError

/-- The dimensions of the variable that are dimensions of the geometries, `names_to_slice_all`
(variable/geom.py:963-965). -/
def spatialDims (gd vd : List Dim) : List Dim := vd.filter fun d => (names gd).contains d.name

/-- The others, `range_to_itr` and `names_to_itr` (variable/geom.py:966-968). -/
def iterDims (gd vd : List Dim) : List Dim := vd.filter fun d => !(names gd).contains d.name

/-- Lengths of the slice of a variable at the indices `t` along the dimensions that are iterated
(variable/geom.py:1003-1006): one along these, the whole length along the others. -/
def sliceShape (gd : List Dim) (vd : List Dim) : List Nat :=
  vd.map fun d => if (names gd).contains d.name then d.size else 1

/-- Where the slice starts: at the index for an iterated dimension, at zero along the others. -/
def sliceStart (gd : List Dim) (it : List Dim) (t : List Nat) (vd : List Dim) : List Nat :=
  vd.map fun d => if (names gd).contains d.name then 0 else t.getD ((names it).idxOf d.name) 0

/-- `var_to_weight[w_slc].get_masked_value()` (variable/geom.py:1006). -/
def sliceAt (gd : List Dim) (v : Var) (t : List Nat) : Arr (Option Rat) :=
  ⟨sliceShape gd v.dims,
    fun i => (maskedValue v).elem (((sliceStart gd (iterDims gd v.dims) t v.dims).zip i).map fun (a, b) => a + b)⟩

/-- `squeeze_out` (variable/geom.py:997): the positions of the iterated dimensions. -/
def squeezeOut (gd vd : List Dim) : List Nat :=
  (List.range vd.length).filter fun k => (vd[k]?).elim false fun d => !(names gd).contains d.name

/-- One turn of the weighting loop (variable/geom.py:1002-1010). -/
def stepAverage (gd : List Dim) (v : Var) (w : Arr (Option Rat)) (t : List Nat) : Res (Option Rat) := do
  let d ← (sliceAt gd v t).squeeze (squeezeOut gd v.dims)
  average d w

/-- What arrives in an array that is not masked: assigning a masked element there assigns the data under the mask, which
is zero for the constant `np.ma.masked` (variable/geom.py:1009-1010). -/
def assigned (x : Option Rat) : Rat := x.getD 0

/-- Order of `np.argsort` of a masked array: masked elements last.  Equal elements may be ordered otherwise by numpy. -/
def keyLE (x y : Option Rat) : Bool :=
  match x, y with
  | _, none => true
  | none, some _ => false
  | some a, some b => decide (a ≤ b)

/-- Put a position where its element belongs. -/
def insertKey (l : List (Option Rat)) (i : Nat) : List Nat → List Nat
  | [] => [i]
  | j :: s => if keyLE (l.getD i none) (l.getD j none) then i :: j :: s else j :: insertKey l i s

/-- `np.argsort` as the permuted list of positions. -/
def argsort (l : List (Option Rat)) : List Nat := (List.range l.length).foldr (insertKey l) []

/-- `l[sindices]`. -/
def take {α : Type} (l : List α) (s : List Nat) : List α := s.filterMap fun i => l[i]?

/-- The path for a variable with dimensions that are iterated (variable/geom.py:974-1010): the variable that replaces it. -/
def averageIter {G : Type} (S : Shapely G) (g : GVar G) (u : Dim) (v : Var) : Res Var := do
  swapTuple (names g.dims) (names (spatialDims g.dims v.dims))
  let it := iterDims g.dims v.dims
  let steps ← (indices (sizes it)).mapM fun t => stepAverage g.dims v (weights S g) t
  let value := fun i : List Nat => assigned ((steps.getD ((indices (sizes it)).idxOf i.dropLast) none))
  .ok { v with dims := newDims v.dims (names g.dims) u
               value := ⟨sizes (newDims v.dims (names g.dims) u), value⟩, mask := none }

/-- The path for a variable without such dimensions (variable/geom.py:1011-1025): values and weights are flattened and
sorted by value, the dimensions are `nd`, and the value has one element.  `set_value` raises a `ValueError` if these do
not fit (variable/base.py:819, 2634-2645). -/
def averageFlatVar {G : Type} (S : Shapely G) (g : GVar G) (nd : List Dim) (v : Var) : Res Var :=
  let a := (indices v.value.shape).map (maskedValue v).elem
  let w := (indices (sizes g.dims)).map (weights S g).elem
  let s := argsort a
  if w.length < a.length then .error .indexError
  else
    let x := averageFlat (take a s) (take w s)
    if sizes nd ≠ [1] then .error .valueError
    else .ok { v with dims := nd, value := ⟨[1], fun _ => assigned x⟩
                      mask := if x.isNone then some (fun _ => true) else none }

/-- The loop over the variables of the collection (variable/geom.py:956-1025): those that are named are averaged, and the
list `new_dimensions` is left as the last one of them made it.  The result has the variables in the same order. -/
def averageAll {G : Type} (S : Shapely G) (g : GVar G) (u : Dim) (toWeight : List String) :
    List Dim → List Var → Res (List Var)
  | _, [] => .ok []
  | nd, v :: vs =>
    if toWeight.contains v.name then
      if (iterDims g.dims v.dims).isEmpty then do
        let x ← averageFlatVar S g nd v
        let r ← averageAll S g u toWeight nd vs
        .ok (x :: r)
      else do
        let x ← averageIter S g u v
        let r ← averageAll S g u toWeight (newDims v.dims (names g.dims) u) vs
        .ok (x :: r)
    else do
      let r ← averageAll S g u toWeight nd vs
      .ok (v :: r)

/-- `g.get_unioned(spatial_average=toWeight)` on one process, for all dimensions of the geometries
(variable/geom.py:886-1025): the unioned geometry and the variables of its collection. -/
def getUnioned {G : Type} (S : Shapely G) (g : GVar G) (vs : List Var) (u : Dim) (toWeight : List String) :
    Res (GVar G × List Var) := do
  let r ← averageAll S g u toWeight (newDims g.dims (names g.dims) u) vs
  .ok (unioned S g (names g.dims) u, r)

/-! ## Several processes -/

/-- What one process has: its part of the geometries and of the variables. -/
structure Rank (G : Type) where
  geoms : GVar G
  vars : List Var

/-- The unioned geometry of one process (variable/geom.py:918-941). -/
def rankUnion {G : Type} (S : Shapely G) (r : Rank G) : G :=
  S.union (toUnion S r.geoms (names r.geoms.dims) [0])

/-- The union of what the processes have, formed on the root (variable/geom.py:944-951). -/
def allUnion {G : Type} (S : Shapely G) (rs : List (Rank G)) : G := S.union (rs.map (rankUnion S))

/-- `weight_or_proxy` (variable/geom.py:1030-1033): the area of the geometry in the variable to be returned, or the number
of geometries if it is zero. -/
def rankWeight {G : Type} (S : Shapely G) (own : G) (r : Rank G) : Rat :=
  if S.area own = 0 then ((sizes r.geoms.dims).foldl (· * ·) 1 : Nat) else S.area own

/-- `live_rank_areas` (variable/geom.py:1035-1043) with root 0.  The returned variable of the root holds the union of all
processes at this point, that of another process its own union. -/
def rankWeights {G : Type} (S : Shapely G) : List (Rank G) → List Rat
  | [] => []
  | root :: others =>
    rankWeight S (allUnion S (root :: others)) root :: others.map fun r => rankWeight S (rankUnion S r) r

/-- `live_rank_areas / np.max(live_rank_areas)` (variable/geom.py:1045). -/
def relative (ws : List Rat) : List Rat := ws.map fun w => w / ((maxOf ws).getD 1)

/-- One value to combine (variable/geom.py:1053-1071): the numbers of the processes are sorted, and so are the weights,
which stay so for the next value. -/
def combineOne (ws : List Rat) (xs : List Rat) : Rat × List Rat :=
  let s := argsort (xs.map some)
  let ws' := take ws s
  (assigned (averageFlat ((take xs s).map some) (ws'.map some)), ws')

/-- The values of one variable, one after the other (variable/geom.py:1051-1071).  `steps` has the numbers of the
processes for each. -/
def combineSteps : List Rat → List (List Rat) → List Rat × List Rat
  | ws, [] => ([], ws)
  | ws, xs :: rest =>
    ((combineOne ws xs).1 :: (combineSteps (combineOne ws xs).2 rest).1, (combineSteps (combineOne ws xs).2 rest).2)

/-- The multi-indices of a variable along the dimensions other than the union dimension, and zero along that
(variable/geom.py:1048-1052).  The union dimension is the last one. -/
def stepIndices (v : Var) : List (List Nat) := (indices (sizes v.dims.dropLast)).map (· ++ [0])

/-- One variable (variable/geom.py:1047-1071): `there` has that variable on each of the processes, the root's first. -/
def combineVar (ws : List Rat) (v : Var) (there : List Var) : Var × List Rat :=
  let r := combineSteps ws ((stepIndices v).map fun i => there.map fun o => o.value.elem i)
  ({ v with value := ⟨v.value.shape, fun i => r.1.getD ((stepIndices v).idxOf i) 0⟩ }, r.2)

/-- All variables of the root's collection (variable/geom.py:1047-1071).  A process without the variable is not
modelled: the processes have the same variables in the same order. -/
def combineAll (toWeight : List String) : List Rat → List Var → List (List Var) → List Var
  | _, [], _ => []
  | ws, v :: vs, columns =>
    if toWeight.contains v.name then
      let c := combineVar ws v ((columns.head?).getD [])
      c.1 :: combineAll toWeight c.2 vs columns.tail
    else v :: combineAll toWeight ws vs columns.tail

/-- The variables at one position of the lists of all processes, position by position. -/
def columnsOf (n : Nat) (ls : List (List Var)) : List (List Var) :=
  (List.range n).map fun k => ls.filterMap fun l => l[k]?

/-- `g.get_unioned(spatial_average=toWeight)` on the root of several processes (variable/geom.py:886-1073): the unioned
geometry and the variables.  With one process nothing is combined. -/
def getUnionedRanks {G : Type} (S : Shapely G) (rs : List (Rank G)) (u : Dim) (toWeight : List String) :
    Res (G × List Var) := do
  let locals ← rs.mapM fun r => getUnioned S r.geoms r.vars u toWeight
  match locals with
  | [] => .error .indexError
  | [l] => .ok (l.1.geom [0], l.2)
  | l :: _ :: _ =>
    .ok (allUnion S rs,
      combineAll toWeight (relative (rankWeights S rs)) l.2 (columnsOf l.2.length (locals.map (·.2))))

end Ocgis.Average
