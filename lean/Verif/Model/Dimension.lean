import Verif.Model.Mpi
/-!
# `variable/dimension.py`, and the index normalisation of `util/helpers.py`
-/
namespace Ocgis

/-- An index as a caller may write it: an integer, a slice, an integer sequence/array, a boolean
sequence/array, or `None`. -/
inductive RawIndex where
  | int (i : Int)
  | slice (s : PySlice)
  | ints (xs : List Int)
  | bools (bs : List Bool)
  | none
  deriving DecidableEq, Repr

/-- A normalised index: what `get_formatted_slice(slc, 1)[0]` returns. -/
inductive Index where
  | slice (s : PySlice)
  | ints (xs : List Int)
  | bools (bs : List Bool)
  deriving DecidableEq, Repr

/-- `np.any(np.diff(arr) > 1)` (util/helpers.py:628). -/
def anyGap : List Int → Bool
  | a :: b :: t => decide (b - a > 1) || anyGap (b :: t)
  | _ => false

/-- `arr.min()` (a `ValueError` on an empty array). -/
def listMin : List Int → Res Int
  | [] => .error .valueError
  | a :: t => .ok (t.foldl min a)

/-- `arr.max()` (a `ValueError` on an empty array). -/
def listMax : List Int → Res Int
  | [] => .error .valueError
  | a :: t => .ok (t.foldl max a)

/-- `get_optimal_slice_from_array(arr, check_diff)` on an integer array (util/helpers.py:624-633).
A boolean array is returned as is; that case is handled by the callers here. -/
def optimalSlice (arr : List Int) (checkDiff : Bool) : Res Index :=
  if checkDiff && anyGap arr then .ok (.ints arr)
  else do
    let mn ← listMin arr
    let mx ← listMax arr
    .ok (.slice ⟨some mn, some (mx + 1)⟩)

/-- `get_formatted_slice(slc, 1)[0]` (util/helpers.py:435-490).  A one-element integer array is turned into
an integer by `int(...)`, which gives the same slice as the array branch. -/
def formatSlice : RawIndex → Res Index
  | .int i => .ok (.slice ⟨some i, some (i + 1)⟩)
  | .slice s => .ok (.slice s)
  | .ints xs => optimalSlice xs true
  | .bools bs => .ok (.bools bs)
  | .none => .ok (.slice PySlice.all)

/-- A dimension's source index: bounds `(start, stop)` or an explicit array
(variable/dimension.py:505-512). -/
inductive SrcIdx where
  | bounds (start stop : Int)
  | fancy (xs : List Int)
  deriving DecidableEq, Repr

/-- `Dimension` (variable/dimension.py:19-67).  `size = none` means unlimited.  Aliases, uid and the
source name are modelled elsewhere (`Model/Naming.lean`). -/
structure Dim where
  name : String
  size : Option Int
  sizeCurrent : Option Int
  dist : Bool
  isEmpty : Bool
  boundsLocal? : Option (Int × Int)
  boundsGlobal? : Option (Int × Int)
  srcIdx : Option SrcIdx
  deriving DecidableEq, Repr

namespace Dim

/-- `len(dim)` (variable/dimension.py:99-106), before Python's check that the result is not negative. -/
def len (d : Dim) : Int :=
  match d.size with
  | some n => n
  | none => d.sizeCurrent.getD 0

/-- `bounds_local` (variable/dimension.py:160-164). -/
def boundsLocal (d : Dim) : Int × Int := d.boundsLocal?.getD (0, d.len)

/-- `bounds_global` (variable/dimension.py:132-136). -/
def boundsGlobal (d : Dim) : Int × Int := d.boundsGlobal?.getD (0, d.len)

/-- The `_src_idx` setter (variable/dimension.py:227-243). -/
def setSrcIdx (d : Dim) (v : Option SrcIdx) : Res Dim :=
  match v with
  | none => .ok { d with srcIdx := none }
  | some (.fancy xs) => if (xs.length : Int) ≠ d.len then .error .valueError else .ok { d with srcIdx := v }
  | some (.bounds a b) => if b - a ≠ d.len then .error .valueError else .ok { d with srcIdx := v }

/-- `set_size(value, src_idx)` for an integer `value` and an explicit source index
(variable/dimension.py:367-395). -/
def setSize (d : Dim) (value : Int) (src : Option SrcIdx) : Res Dim :=
  let d := { d with
    boundsLocal? := none
    sizeCurrent := some value
    size := match d.size with
      | none => none
      | some _ => some value }
  d.setSrcIdx src

/-- `convert_to_empty()` (variable/dimension.py:249-264). -/
def convertToEmpty (d : Dim) : Res Dim :=
  if !d.dist then .error .valueError
  else .ok { d with
    boundsLocal? := some (0, 0)
    boundsGlobal? := some (0, 0)
    srcIdx := none
    isEmpty := true
    size := some 0
    sizeCurrent := some 0 }

/-- `slice_source_index(slc, src_idx)` (variable/dimension.py:515-547).  Comparing `None` with an integer
(lines 534, 539) is a `TypeError`. -/
def sliceSourceIndex (slc : Index) (src : Option SrcIdx) : Res (Option SrcIdx) :=
  if slc = .slice PySlice.all then .ok src
  else match src with
    | none => .ok none
    | some (.fancy xs) =>
      match slc with
      | .slice s => .ok (some (.fancy (s.get xs)))
      | .ints idx => do let ys ← takeInts xs idx; .ok (some (.fancy ys))
      | .bools bs => if bs.length ≠ xs.length then .error .indexError else .ok (some (.fancy (takeBools xs bs)))
    | some (.bounds a b) =>
      let offset := a
      match slc with
      | .ints idx => .ok (some (.fancy (idx.map (· + offset))))
      | .bools bs => .ok (some (.fancy ((whereTrue bs 0).map (· + offset))))
      | .slice s =>
        let lo := a - offset
        let hi := b - offset
        match s.start, s.stop with
        | some start, some stop =>
          let new0 := if start < 0 then hi + start else if start > lo then start else lo
          let new1 := if stop < 0 then hi + stop else if stop < hi then stop else hi
          .ok (some (.bounds (new0 + offset) (new1 + offset)))
        | _, _ => .error .typeError

/-- The length computed by `__getitem_main__` (variable/dimension.py:406-444). -/
def sliceLength (lengthSelf : Int) (slc : Index) : Int :=
  let length : Int := match slc with
    | .ints xs => xs.length
    | .bools bs => (bs.count true : Nat)
    | .slice s =>
      match s.start, s.stop with
      | some a, some b => if b - a > lengthSelf then lengthSelf else b - a
      | none, some b => if b > 0 then lengthSelf else lengthSelf + b
      | none, none => lengthSelf
      | some a, none => if a > 0 then lengthSelf - a else a.natAbs
  if length < 0 then length + lengthSelf else length

/-- `Dimension.__getitem__(slc)` (variable/dimension.py:72-97, 405-449). -/
def getitem (d : Dim) (slc : RawIndex) : Res Dim := do
  if d.len < 0 then .error .valueError
  else if d.len = 0 then .error .indexError
  else
    let slc ← formatSlice slc
    let src ← sliceSourceIndex slc d.srcIdx
    d.setSize (sliceLength d.len slc) src

end Dim

/-- One rank's part of `Dimension.get_distributed_slice(slice(start, stop))` before communication
(variable/dimension.py:307-332), for a distributed dimension and a slice other than `slice(None)`:
the sliced copy and the size the rank contributes. -/
def distSliceLocal (d : Dim) (start stop : Int) : Res (Dim × Int) :=
  if d.isEmpty then .error .emptyObject
  else do
    let loc ← Mpi.globalToLocal (some start) (some stop) d.boundsLocal.1 d.boundsLocal.2
    match loc with
    | none => do
      let r ← d.convertToEmpty
      .ok (r, 0)
    | some (a, b) => do
      let r ← d.getitem (.slice ⟨some a, some b⟩)
      .ok (r, r.len)

/-- The rest of `get_distributed_slice` (variable/dimension.py:334-364) for all ranks: the global bounds are
the sum of the gathered sizes, and the non-empty ranks shift their local bounds by the lengths of the
non-empty ranks before them.  The rank loop with its broadcast is a left fold carrying `adjust`; the first
live rank is not shifted (its shift is zero) and starts `adjust` at its own length. -/
def distSliceNormalise (total : Int) : List Dim → Int → List Dim
  | [], _ => []
  | d :: ds, adjust =>
    if d.isEmpty then d :: distSliceNormalise total ds adjust
    else
      { d with boundsGlobal? := some (0, total)
               boundsLocal? := some (d.boundsLocal.1 + adjust, d.boundsLocal.2 + adjust) }
        :: distSliceNormalise total ds (adjust + d.len)

/-- `get_distributed_slice(slice(start, stop))` on the ranks of a communicator, as a function of all ranks'
dimensions. -/
def distSlice (ds : List Dim) (start stop : Int) : Res (List Dim) := do
  let parts ← ds.mapM (fun d => distSliceLocal d start stop)
  let total := (parts.map (·.2)).foldl (· + ·) 0
  .ok (distSliceNormalise total (parts.map (·.1)) 0)

end Ocgis
