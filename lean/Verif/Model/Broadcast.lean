import Verif.Py
/-!
# Reordering and broadcasting arrays by dimension names; trimming by a mask
-/
namespace Ocgis.Array

/-- Exchange two positions of a list. -/
def swapAt {α : Type _} (l : List α) (i j : Nat) : List α :=
  match l[i]?, l[j]? with
  | some a, some b => (l.set i b).set j a
  | _, _ => l

/-- The loop of `get_swap_chain` (util/helpers.py:703-710) for the positions `k`, `k + 1`, ... whose desired names are
the third argument: the running order, and the swaps made.  `index` of a missing name is a `ValueError`, a position
beyond the end an `IndexError`. -/
def swapLoop : Nat → List String → List String → Res (List (Nat × Nat))
  | _, _, [] => .ok []
  | k, running, want :: rest =>
    match running[k]? with
    | none => .error .indexError
    | some have' =>
      if have' ≠ want then
        match running.idxOf? want with
        | none => .error .valueError
        | some dst => do
          let ops ← swapLoop (k + 1) (swapAt running k dst) rest
          .ok ((k, dst) :: ops)
      else swapLoop (k + 1) running rest

/-- `get_swap_chain(actual, desired)` (util/helpers.py:692-712).  The loop runs over `range(len(actual))`; a shorter
`desired` is an `IndexError`. -/
def swapChain (actual desired : List String) : Res (List (Nat × Nat)) :=
  if !(actual.all desired.contains && desired.all actual.contains) then .error .assertionError
  else if desired.length < actual.length then .error .indexError
  else swapLoop 0 actual (desired.take actual.length)

/-- An n-dimensional array: its shape and its elements by multi-index. -/
structure Arr (α : Type _) where
  shape : List Nat
  elem : List Nat → α

/-- `arr.swapaxes(i, j)`. -/
def Arr.swapaxes {α : Type _} (a : Arr α) (s : Nat × Nat) : Arr α :=
  ⟨swapAt a.shape s.1 s.2, fun idx => a.elem (swapAt idx s.1 s.2)⟩

/-- Put zeros at the dropped positions: `keep` says which positions of the result come from the index. -/
def expandIdx : List Bool → List Nat → List Nat
  | [], _ => []
  | false :: ks, is => 0 :: expandIdx ks is
  | true :: ks, i :: is => i :: expandIdx ks is
  | true :: ks, [] => 0 :: expandIdx ks []

/-- Keep the marked positions. -/
def keepIdx {α : Type _} : List Bool → List α → List α
  | true :: ks, x :: xs => x :: keepIdx ks xs
  | false :: ks, _ :: xs => keepIdx ks xs
  | _, _ => []

/-- Which of the `n` axes are not in `axes`. -/
def keepMask (n : Nat) (axes : List Nat) : List Bool := (List.range n).map fun k => !axes.contains k

/-- `np.squeeze(arr, axis=axes)`: only axes of length one can be dropped. -/
def Arr.squeeze {α : Type _} (a : Arr α) (axes : List Nat) : Res (Arr α) :=
  if axes.all fun k => a.shape[k]? = some 1 then
    .ok ⟨keepIdx (keepMask a.shape.length axes) a.shape, fun idx => a.elem (expandIdx (keepMask a.shape.length axes) idx)⟩
  else .error .valueError

/-- `arr_shape.insert(s[0], 1)` for each singleton, then `arr.reshape(*arr_shape)` (util/broadcaster.py:30-33).  Inserting
axes of length one does not change the row-major order, so the element at an index is the one at the index without
these positions. -/
def Arr.insertSingletons {α : Type _} (a : Arr α) (positions : List Nat) : Arr α :=
  let shape := positions.foldl (fun s p => s.insertIdx p 1) a.shape
  ⟨shape, fun idx => a.elem (keepIdx (keepMask shape.length positions) idx)⟩

/-- Drop the source dimensions that are not in the destination (util/broadcaster.py:13-19). -/
def squeezeNames {α : Type _} (arr : Arr α) (src dst : List String) : Res (List String × Arr α) :=
  let toSqueeze := src.filter fun dn => !(dst.filter src.contains).contains dn
  if toSqueeze.length > 0 then do
    let a ← arr.squeeze (toSqueeze.map fun t => src.idxOf t)
    .ok (src.filter dst.contains, a)
  else .ok (src, arr)

/-- `broadcast_array_by_dimension_names(arr, src_names, dst_names)` (util/broadcaster.py:8-34).  Masks of masked arrays
are carried along with the values (lines 24-28); here an element may be a value with its mask. -/
def broadcast {α : Type _} (arr : Arr α) (src dst : List String) : Res (Arr α) := do
  let singletons := (List.range dst.length).filter fun k => !src.contains (dst.getD k "")
  let matching := dst.filter src.contains
  let squeezed ← squeezeNames arr src dst
  let chain ← swapChain squeezed.1 matching
  .ok ((chain.foldl Arr.swapaxes squeezed.2).insertSingletons singletons)

/-- What `broadcast_variable` touches: dimension names and sizes, value, mask. -/
structure Var (α : Type _) where
  names : List String
  value : Arr α
  mask : Option (Arr Bool)

/-- `broadcast_variable(src, dst_names)` (util/broadcaster.py:47-77): every destination name must be a dimension of the
variable (`KeyError`). -/
def broadcastVariable {α : Type _} (v : Var α) (dst : List String) : Res (Var α) := do
  let value ← broadcast v.value v.names dst
  let mask ← match v.mask with
    | none => .ok none
    | some m => (broadcast m v.names dst).map some
  if dst.all v.names.contains then .ok ⟨dst, value, mask⟩ else .error .keyError

/-- `with broadcast_scope(src, dst_names): body` (util/broadcaster.py:37-44), as a function of what the body does to the
variable.  The outcome is the exception, if any, and the variable afterwards. -/
def broadcastScope {α : Type _} (v : Var α) (dst : List String) (body : Var α → Option PyErr × Var α) :
    Option PyErr × Var α :=
  match broadcastVariable v dst with
  | .error e =>
    match broadcastVariable v v.names with
    | .ok v' => (some e, v')
    | .error e' => (some e', v)
  | .ok v1 =>
    match broadcastVariable (body v1).2 v.names with
    | .ok v' => ((body v1).1, v')
    | .error e => (some e, (body v1).2)

/-! ## Trimming -/

/-- First row with an unmasked element, or the default (helpers.py:741-745). -/
def firstTrue (n dflt : Nat) (p : Nat → Bool) : Nat := ((List.range n).find? p).getD dflt

/-- `stop`: one past the last position with an unmasked element, or the default (helpers.py:748-754). -/
def lastTrue (n : Nat) (p : Nat → Bool) : Nat :=
  (((List.range n).map fun k => n - (k + 1)).find? p).elim n (· + 1)

/-- `get_trimmed_array_by_mask(arr, return_adjustments=True)` (util/helpers.py:715-785) for a two-dimensional array of
`ncol` columns; `masked` tells whether an element is masked (for a boolean array, the element itself).  Returns the
trimmed array and the row and column slices. -/
def trim {α : Type _} (masked : α → Bool) (ncol : Nat) (arr : List (List α)) :
    Res (List (List α) × (Nat × Nat) × (Nat × Nat)) :=
  if arr.all (fun row => row.all masked) then .error .allElementsMasked
  else
    let rowHas := fun r : Nat => !(((arr[r]?).getD []).all masked)
    let colHas := fun c : Nat => !(arr.all fun row => (row[c]?).elim true masked)
    let r0 := firstTrue arr.length 0 rowHas
    let r1 := lastTrue arr.length rowHas
    let c0 := firstTrue ncol 0 colHas
    let c1 := lastTrue ncol colHas
    .ok ((((arr.drop r0).take (r1 - r0)).map fun row => (row.drop c0).take (c1 - c0)), (r0, r1), (c0, c1))

end Ocgis.Array
