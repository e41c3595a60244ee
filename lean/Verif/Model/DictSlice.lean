import Verif.Model.Broadcast
import Verif.Model.Dimension
/-!
# Slicing by dimension names
-/
namespace Ocgis.DictSlice
open Ocgis.Array (Arr)

/-- A Python dictionary as an association list without repeated keys. -/
abbrev Assoc (α : Type) := List (String × α)

/-- `d.get(key)`. -/
def find {α : Type} (d : Assoc α) (key : String) : Option α := (List.find? (fun kv => kv.1 == key) d).map (·.2)

/-- `d[key] = value` for a key that is there. -/
def put {α : Type} (d : Assoc α) (key : String) (value : α) : Assoc α := d.map fun kv => if kv.1 = key then (key, value) else kv

/-- `get_mapped_slice(slc_src, names_src, names_dst)` (variable/base.py:2417-2426). -/
def mappedSlice (slc : List Index) (src dst : List String) : Res (List Index) :=
  dst.mapM fun n =>
    match src.idxOf? n with
    | none => .ok (.slice PySlice.all)
    | some i => match slc[i]? with
      | none => .error .indexError
      | some s => .ok s

/-- `get_dslice(dimensions, slc)` (variable/base.py:2402-2403). -/
def dslice (names : List String) (slc : List RawIndex) : Assoc RawIndex := names.zip slc

/-- The positions numpy selects on an axis of length `n`. -/
def positions (n : Nat) : Index → Res (List Nat)
  | .slice s => .ok (s.get (List.range n))
  | .ints is => takeInts (List.range n) is
  | .bools bs => if bs.length ≠ n then .error .indexError else .ok (takeBools (List.range n) bs)

/-- An index array: numpy's advanced indexing. -/
def fancy : Index → Bool
  | .slice _ => false
  | _ => true

/-- The positions along every axis; too many or too few indices are not possible here. -/
def allPositions : List Index → List Nat → Res (List (List Nat))
  | s :: ss, n :: ns => do
    let p ← positions n s
    let ps ← allPositions ss ns
    .ok (p :: ps)
  | [], [] => .ok []
  | _, _ => .error .indexError

/-- The index into the sliced array as an index into the original. -/
def through (pos : List (List Nat)) (idx : List Nat) : List Nat := pos.zipWith (fun p i => p.getD i 0) idx

/-- numpy's result for several index arrays, one for each axis: one axis along which they are taken together. (Slices beside
several index arrays are not modelled.) -/
def pointwise {α : Type} (slcs : List Index) (pos : List (List Nat)) (elem : List Nat → α) : Res (Arr α) :=
  if slcs.all fancy then
    let n := (pos.map List.length).foldl max 0
    if pos.all (fun p => p.length == n || p.length == 1) then
      .ok ⟨[n], fun idx => elem (pos.map fun p => p.getD (if p.length = 1 then 0 else idx.getD 0 0) 0)⟩
    else .error .indexError
  else .error .notImplemented

/-- `arr[slcs]` for as many indices as dimensions. -/
def sliceArr {α : Type} (slcs : List Index) (shape : List Nat) (elem : List Nat → α) : Res (Arr α) :=
  match allPositions slcs shape with
  | .error e => .error e
  | .ok pos =>
    if (slcs.filter fancy).length ≤ 1 then .ok ⟨pos.map List.length, fun idx => elem (through pos idx)⟩
    else pointwise slcs pos elem

/-- A variable with its values loaded. -/
structure DVar (α : Type) where
  names : List String
  shape : List Nat
  value : List Nat → α
  mask : Option (List Nat → Bool) := none

/-- The mask is sliced like the value (variable/base.py:328-334). -/
def sliceMask (slcs : List Index) (shape : List Nat) : Option (List Nat → Bool) → Res (Option (List Nat → Bool))
  | none => .ok none
  | some m => (sliceArr slcs shape m).map fun a => some a.elem

/-- `variable.__getitem__(slcs)` without a parent (variable/base.py:52-67, 176-186, 322-334). A one-dimensional variable is given
a list of one index, which is formatted like the index itself if that is an integer, a slice or an array. -/
def sliceVar {α : Type} (slcs : List RawIndex) (v : DVar α) : Res (DVar α) :=
  match slcs.mapM formatSlice with
  | .error e => .error e
  | .ok fs =>
    match sliceArr fs v.shape v.value with
    | .error e => .error e
    | .ok a =>
      match sliceMask fs v.shape v.mask with
      | .error e => .error e
      | .ok m => .ok { v with shape := a.shape, value := a.elem, mask := m }

/-- The slice of a variable in a dictionary slice of its collection (variable/base.py:1778-1790). -/
def dictSliceVar {α : Type} (d : Assoc RawIndex) (v : DVar α) : Res (DVar α) :=
  if v.names.any (fun n => (find d n).isSome) then sliceVar (v.names.map fun n => (find d n).getD (.slice PySlice.all)) v
  else .ok v

/-- The dimensions of a dictionary slice (variable/base.py:1775-1776). -/
def sliceDims (all : Assoc Dim) : Assoc RawIndex → Assoc Dim → Res (Assoc Dim)
  | [], acc => .ok acc
  | (n, s) :: rest, acc =>
    match find all n with
    | none => .error .keyError
    | some d =>
      match d.getitem s with
      | .error e => .error e
      | .ok d' => sliceDims all rest (put acc n d')

/-- A collection: its dimensions and variables by name. -/
structure Coll (α : Type) where
  dims : Assoc Dim
  vars : Assoc (DVar α)

/-- The variables of a dictionary slice. -/
def sliceVars {α : Type} (d : Assoc RawIndex) : Assoc (DVar α) → Res (Assoc (DVar α))
  | [] => .ok []
  | (k, v) :: rest =>
    match dictSliceVar d v with
    | .error e => .error e
    | .ok v' =>
      match sliceVars d rest with
      | .error e => .error e
      | .ok r => .ok ((k, v') :: r)

/-- `collection[{...}]` (variable/base.py:1759-1793) for loaded variables. -/
def sliceColl {α : Type} (c : Coll α) (d : Assoc RawIndex) : Res (Coll α) :=
  if c.dims = [] then .error .dimensionsRequired
  else
    match sliceDims c.dims d c.dims with
    | .error e => .error e
    | .ok dims =>
      match sliceVars d c.vars with
      | .error e => .error e
      | .ok vars => .ok ⟨dims, vars⟩

end Ocgis.DictSlice
