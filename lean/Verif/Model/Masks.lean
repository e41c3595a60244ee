import Verif.Model.Broadcast
/-!
# Masks of variables
-/
namespace Ocgis.Masks
open Ocgis.Array (Arr)

/-- What mask operations touch of a variable: its dimension names, shape and mask (`none`: no mask allocated). -/
structure MVar where
  name : String := ""
  names : List String
  shape : List Nat
  mask : Option (List Nat → Bool) := none

/-- The element is masked. A mask that is not allocated is an array of `False`. -/
def MVar.masked (v : MVar) (idx : List Nat) : Bool := match v.mask with | none => false | some m => m idx

/-- The new mask with `update=True` (variable/base.py:1039-1046). -/
def orMask (old new : Option (List Nat → Bool)) : Option (List Nat → Bool) :=
  match old, new with
  | some o, some m => some fun idx => m idx || o idx
  | _, none => old
  | none, some m => some m

/-- `assert mask.shape == self.shape` (variable/base.py:1036-1037). -/
def shapeOk (shape : List Nat) : Option (Arr Bool) → Bool
  | none => true
  | some m => decide (m.shape = shape)

/-- `var.set_mask(mask, update=update)` (variable/base.py:1026-1053) without cascade; the mask of the bounds follows by
`setMaskByVariable`. -/
def setMask (v : MVar) (mask : Option (Arr Bool)) (update : Bool) : Res MVar :=
  if shapeOk v.shape mask then
    .ok { v with mask := if update then orMask v.mask (mask.map (·.elem)) else mask.map (·.elem) }
  else .error .assertionError

/-! ## Variables read from a source -/

/-- A variable whose values (and mask, if the values are a masked array) are in a file. -/
structure Sourced where
  var : MVar
  source : Option (Arr Bool)
  loaded : Bool := false

/-- `load()` (variable/base.py:1675-1687): the first time, `init_variable_value` sets the value with `update_mask=True`
(driver/base.py:625-630, variable/base.py:765-823). -/
def Sourced.load (s : Sourced) : Res Sourced :=
  if s.loaded then .ok s
  else match s.source with
    | none => .ok { s with loaded := true }
    | some m => do
      let v ← setMask s.var (some m) true
      .ok { s with var := v, loaded := true }

/-- `get_mask()` (variable/base.py:1651-1673): after loading, the mask is taken away and put back, united with what is
then found (nothing). -/
def Sourced.getMask (s : Sourced) : Res (Sourced × Option (List Nat → Bool)) := do
  let s ← s.load
  let current := s.var.mask
  let fromSource : Option (List Nat → Bool) := none
  let newMask := match current, fromSource with
    | none, f => f
    | some c, some f => some fun idx => c idx || f idx
    | some c, none => some c
  let s' : Sourced := { s with var := { s.var with mask := newMask } }
  .ok (s', newMask)

/-- Operations on a sourced variable. -/
inductive MaskOp
  | update (mask : Option (Arr Bool))
  | load
  | getMask

/-- Carry out an operation. -/
def Sourced.step (s : Sourced) : MaskOp → Res Sourced
  | .update m => do
    let v ← setMask s.var m true
    .ok { s with var := v }
  | .load => s.load
  | .getMask => do
    let r ← s.getMask
    .ok r.1

/-- Carry out operations one after the other. -/
def Sourced.run : Sourced → List MaskOp → Res Sourced
  | s, [] => .ok s
  | s, o :: os =>
    match s.step o with
    | .error e => .error e
    | .ok s' => s'.run os

/-! ## Cascading -/

/-- `itertools.product(*[range(n) for n in shape])`. -/
def allIdx : List Nat → List (List Nat)
  | [] => [[]]
  | n :: ns => (List.range n).flatMap fun i => (allIdx ns).map fun r => i :: r

/-- `get_mapping_for_slice(names_source, names_destination)` (variable/base.py:2429-2434); the order, that of a Python
set, plays no part in its use. -/
def sliceMap (src dst : List String) : List (Nat × Nat) :=
  (src.filter dst.contains).map fun n => (src.idxOf n, dst.idxOf n)

/-- The template matches the index: `mask_target[tuple(template)]`. -/
def onTemplate (map : List (Nat × Nat)) (slc idx : List Nat) : Bool := map.all fun m => idx[m.2]? == slc[m.1]?

/-- The template is within the target. -/
def templateInside (map : List (Nat × Nat)) (slc shape : List Nat) : Bool :=
  map.all fun m => decide (slc.getD m.1 0 < shape.getD m.2 0)

/-- One turn of the loop of `set_mask_by_variable` (variable/base.py:2531-2540). -/
def cascadeStep (map : List (Nat × Nat)) (shape : List Nat) (src : List Nat → Bool) (t : List Nat → Bool) (slc : List Nat) :
    Res (List Nat → Bool) :=
  if src slc then
    if templateInside map slc shape then .ok fun idx => t idx || onTemplate map slc idx
    else .error .indexError
  else .ok t

/-- The loop. -/
def cascadeLoop (map : List (Nat × Nat)) (shape : List Nat) (src : List Nat → Bool) : (List Nat → Bool) → List (List Nat) →
    Res (List Nat → Bool)
  | t, [] => .ok t
  | t, s :: ss =>
    match cascadeStep map shape src t s with
    | .error e => .error e
    | .ok t' => cascadeLoop map shape src t' ss

/-- `set_mask_by_variable(source, target, update=update)` (variable/base.py:2509-2541): the target afterwards. -/
def setMaskByVariable (source target : MVar) (update : Bool) : Res MVar :=
  match source.mask with
  | none => .ok target
  | some ms =>
    if source.names = target.names then setMask target (some ⟨source.shape, ms⟩) update
    else
      match cascadeLoop (sliceMap source.names target.names) target.shape ms target.masked (allIdx source.shape) with
      | .error e => .error e
      | .ok t => setMask target (some ⟨target.shape, t⟩) update

/-- One turn of the loop of `collection.set_mask` (variable/base.py:2253-2266). -/
def cascadeOne (var : MVar) (exclude : List String) (update : Bool) (v : MVar) : Res MVar :=
  if v.name ∈ exclude ∨ var.name = v.name ∨ v.names = [] ∨ (sliceMap var.names v.names) = [] then .ok v
  else setMaskByVariable var v update

/-- `collection.set_mask(variable, exclude, update)` (variable/base.py:2244-2266): the variables of the collection afterwards. -/
def cascade (var : MVar) (exclude : List String) (update : Bool) : List MVar → Res (List MVar)
  | [] => .ok []
  | v :: vs =>
    match cascadeOne var exclude update v with
    | .error e => .error e
    | .ok v' =>
      match cascade var exclude update vs with
      | .error e => .error e
      | .ok vs' => .ok (v' :: vs')

/-- `set_variable_spatial_mask(variable, mask_spatial, slice_row, slice_col)` (util/large_array.py:228-248) for a variable
whose last two dimensions are as long as the row and column slices, which begin at `r0` and `c0`. -/
def spatialMask (v : MVar) (spatial : Nat → Nat → Bool) (r0 c0 : Nat) : Res MVar :=
  setMask v (some ⟨v.shape, fun idx => spatial (r0 + idx.getD (v.shape.length - 2) 0) (c0 + idx.getD (v.shape.length - 1) 0) || v.masked idx⟩) false

end Ocgis.Masks
