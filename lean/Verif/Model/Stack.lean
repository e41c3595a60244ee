import Verif.Model.Broadcast
/-!
# Stacking variables
-/
namespace Ocgis.Stack
open Ocgis.Array (Arr)

/-- A variable with its values loaded. -/
structure SVar (α : Type) where
  names : List String
  shape : List Nat
  value : List Nat → α
  mask : Option (List Nat → Bool) := none

/-- `len(var.dimensions_dict[name])`. -/
def SVar.lenOf {α : Type} (v : SVar α) (name : String) : Res Nat :=
  match v.names.idxOf? name with
  | none => .error .keyError
  | some i => .ok (v.shape.getD i 0)

/-- numpy: an array of shape `b` may be assigned to a region of shape `r`. -/
def broadcastable (b r : List Nat) : Bool :=
  (List.range b.length).all fun k =>
    b.getD k 0 == 1 || (decide (b.length ≤ r.length + k) && b.getD k 0 == r.getD (r.length + k - b.length) 0)

/-- numpy: the element of the assigned array that goes to the element `idx` of the region. -/
def bcastIdx (b idx : List Nat) : List Nat :=
  (List.range b.length).map fun k => if b.getD k 0 = 1 then 0 else idx.getD (idx.length + k - b.length) 0

/-- The index lies between `off` and `off + len` along the axis. -/
def within (axis off len : Nat) (idx : List Nat) : Bool := decide (off ≤ idx.getD axis 0) && decide (idx.getD axis 0 < off + len)

/-- `a[:, ..., off:off + len, ..., :] = b`, the slice being along `axis`, for a target of the shape of the region elsewhere. -/
def assignAlong {β : Type} (axis off len : Nat) (region : List Nat) (bshape : List Nat) (b a : List Nat → β) : Res (List Nat → β) :=
  if broadcastable bshape region then
    .ok fun idx => if within axis off len idx then b (bcastIdx bshape (idx.set axis (idx.getD axis 0 - off))) else a idx
  else .error .valueError

/-- The mask after `new_var[slc] = var`: untouched if the other variable has none, else allocated and assigned
(variable/base.py:357-370). -/
def assignMask {α : Type} (axis off len : Nat) (region : List Nat) (v : SVar α) (a : Option (List Nat → Bool)) :
    Res (Option (List Nat → Bool)) :=
  match v.mask with
  | none => .ok a
  | some m => (assignAlong axis off len region v.shape m (a.getD fun _ => false)).map some

/-- The loop filling the outgoing variable (variable/base.py:2613-2627). -/
def fillLoop {α : Type} (dim : String) (axis : Nat) (archShape : List Nat) : Nat → SVar α → List (SVar α) → Res (SVar α)
  | _, new, [] => .ok new
  | off, new, v :: vs =>
    match v.lenOf dim with
    | .error e => .error e
    | .ok len =>
      match assignAlong axis off len (archShape.set axis len) v.shape v.value new.value with
      | .error e => .error e
      | .ok val =>
        match assignMask axis off len (archShape.set axis len) v new.mask with
        | .error e => .error e
        | .ok m => fillLoop dim axis archShape (off + len) { new with value := val, mask := m } vs

/-- The size of the stacked dimension (variable/base.py:2584-2589). -/
def newSize {α : Type} (dim : String) : List (SVar α) → Res Nat
  | [] => .ok 0
  | v :: vs =>
    match v.lenOf dim with
    | .error e => .error e
    | .ok n =>
      match newSize dim vs with
      | .error e => .error e
      | .ok m => .ok (n + m)

/-- `stack(targets, stack_dim)` for loaded, not empty variables (variable/base.py:2544-2631). `fill` is what a newly allocated
array holds. -/
def stack {α : Type} (fill : α) (targets : List (SVar α)) (dim : String) : Res (SVar α) :=
  match targets with
  | [] => .error .indexError
  | arch :: _ =>
    match newSize dim targets with
    | .error e => .error e
    | .ok n =>
      let axis := arch.names.idxOf dim
      fillLoop dim axis arch.shape 0 { names := arch.names, shape := arch.shape.set axis n, value := fun _ => fill } targets

end Ocgis.Stack
