import Verif.Model.Masks
/-!
# The mask of a grid

Models `get_or_create_spatial_mask()` and `set_spatial_mask()` (driver/base.py:480-535, 694-731, 751-762), `mask_variable` and
`has_mask` (spatial/base.py:365-370, 441-448), `create_spatial_mask_variable()` (spatial/base.py:685-701) and
`grid_set_mask_cascade()` (spatial/grid.py:1282-1284), and the reading of masks of SCRIP and ESMF unstructured files
(driver/nc_scrip.py:62-79).  Variables are not empty and in memory, except in SCRIP and ESMF files; mask variables have no bounds.
What an exception leaves behind, and dimensions that go away with a mask, are not modelled.
-/
namespace Ocgis.GridMask
open Ocgis.Array (Arr)
open Ocgis.Masks

/-- A variable: dimensions and mask, whether its attribute `ocgis_role` is `spatial_mask`, and which values are its fill value. -/
structure GV where
  var : MVar
  role : Bool
  filled : List Nat → Bool

/-- A field with a grid: its variables, the entry for the spatial mask in the dimension map, the dimensions of the grid, and the names
of the coordinate variables and of their bounds. -/
structure GridField where
  vars : List (String × GV)
  mask : Option String
  names : List String
  shape : List Nat
  coords : List String
  bounds : List String

/-- `collection[name] = variable`. -/
def put (name : String) (v : GV) : List (String × GV) → List (String × GV)
  | [] => [(name, v)]
  | (k, w) :: r => if k = name then (k, v) :: r else (k, w) :: put name v r

/-- The default name of a mask variable (constants.py:197). -/
def maskName : String := "ocgis_spatial_mask"

/-- `mask_variable` (spatial/base.py:441-448). -/
def GridField.maskVariable (g : GridField) : Res (Option GV) :=
  match g.mask with
  | none => .ok none
  | some n => match g.vars.lookup n with
    | none => .error .keyError
    | some v => .ok (some v)

/-- `create_spatial_mask_variable` (spatial/base.py:685-701): all values are zero, which is not the fill value. -/
def newMask (g : GridField) (m : Option (Arr Bool)) : Res GV :=
  match setMask { name := maskName, names := g.names, shape := g.shape } m false with
  | .error e => .error e
  | .ok v => .ok ⟨v, true, fun _ => false⟩

/-- `variable.get_mask(create, check_value)` (variable/base.py:1012-1024): the variable afterwards, and the mask. -/
def varMask (v : GV) (create check : Bool) : GV × Option (List Nat → Bool) :=
  match v.var.mask with
  | some m => (v, some m)
  | none =>
    if create then
      let m := if check then v.filled else fun _ => false
      ({ v with var := { v.var with mask := some m } }, some m)
    else (v, none)

/-- Shapes of NumPy broadcasting, last axis first. -/
def bdims : List Nat → List Nat → Option (List Nat)
  | [], b => some b
  | a, [] => some a
  | x :: a, y :: b =>
    if x = y ∨ y = 1 then (bdims a b).map (x :: ·)
    else if x = 1 then (bdims a b).map (y :: ·)
    else none

/-- The index of an array that is broadcast to the index. -/
def bidx (shape idx : List Nat) : List Nat :=
  List.zipWith (fun n i => if n = 1 then 0 else i) shape (idx.drop (idx.length - shape.length))

/-- `np.logical_or`. -/
def npOr (a b : Arr Bool) : Res (Arr Bool) :=
  if a.shape = b.shape then .ok ⟨a.shape, fun i => a.elem i || b.elem i⟩
  else match bdims a.shape.reverse b.shape.reverse with
    | none => .error .valueError
    | some s => .ok ⟨s.reverse, fun i => a.elem (bidx a.shape i) || b.elem (bidx b.shape i)⟩

/-- The loop over coordinate variables (driver/base.py:514-520): the variables, whose masks are created, and the mask so far. -/
def combine : List String → List (String × GV) → Option (Arr Bool) → Res (List (String × GV) × Option (Arr Bool))
  | [], vars, acc => .ok (vars, acc)
  | c :: cs, vars, acc => match vars.lookup c with
    | none => .error .keyError
    | some v =>
      let r := varMask v true true
      let cur : Arr Bool := ⟨v.var.shape, r.2.getD fun _ => false⟩
      match acc with
      | none => combine cs (put c r.1 vars) (some cur)
      | some a => match npOr cur a with
        | .error e => .error e
        | .ok m => combine cs (put c r.1 vars) (some m)

/-- `grid.get_mask(create, check_value)` (driver/base.py:504-535). -/
def getMask (g : GridField) (create check : Bool) : Res (GridField × Option (List Nat → Bool)) :=
  match g.maskVariable with
  | .error e => .error e
  | .ok (some v) =>
    if v.role then
      let r := varMask v create check
      .ok ({ g with vars := put (g.mask.getD "") r.1 g.vars }, r.2)
    else .error .valueError
  | .ok none =>
    if create then
      match (if check then combine g.coords g.vars none else .ok (g.vars, none)) with
      | .error e => .error e
      | .ok (vars, m) => match newMask g m with
        | .error e => .error e
        | .ok v =>
          let r := varMask v create check
          .ok ({ g with vars := put maskName r.1 vars, mask := some maskName }, r.2)
    else .ok (g, none)

/-- `grid_set_mask_cascade` (spatial/grid.py:1282-1284) with `collection.set_mask` (variable/base.py:2256-2266). -/
def cascadeVars (m : MVar) (exclude : List String) : List (String × GV) → Res (List (String × GV))
  | [] => .ok []
  | (k, v) :: r => match cascadeOne m exclude false v.var with
    | .error e => .error e
    | .ok w => match cascadeVars m exclude r with
      | .error e => .error e
      | .ok r' => .ok ((k, { v with var := w }) :: r')

/-- What a mask is set from: nothing, an array, or a variable and the other variables of its collection. -/
inductive Value
  | nothing
  | array (a : Arr Bool)
  | fromVar (v : GV) (others : List GV)

/-- `grid.set_mask(value)` without cascade (driver/base.py:709-728). -/
def setPlain (g : GridField) : Value → Res GridField
  | .nothing => match g.maskVariable with
    | .error e => .error e
    | .ok none => .ok g
    | .ok (some _) => .ok { g with vars := g.vars.filter fun e => e.1 ≠ g.mask.getD "", mask := none }
  | .fromVar v others =>
    .ok { g with vars := put v.var.name v (others.foldl (fun l o => put o.var.name o l) g.vars), mask := some v.var.name }
  | .array a => match g.maskVariable with
    | .error e => .error e
    | .ok none => match newMask g (some a) with
      | .error e => .error e
      | .ok v =>
        if (g.vars.lookup maskName).isSome then .error .variableInCollection
        else .ok { g with vars := put maskName v g.vars, mask := some maskName }
    | .ok (some v) => match setMask v.var (some a) false with
      | .error e => .error e
      | .ok w => .ok { g with vars := put (g.mask.getD "") { v with var := w } g.vars }

/-- `grid.set_mask(value, cascade)` (driver/base.py:709-731). -/
def setGridMask (g : GridField) (value : Value) (casc : Bool) : Res GridField :=
  match setPlain g value with
  | .error e => .error e
  | .ok g' => match value, casc with
    | .nothing, _ => .ok g'
    | _, false => .ok g'
    | _, true => match g'.maskVariable with
      | .error e => .error e
      | .ok none => .ok g'
      | .ok (some v) => match cascadeVars v.var (g'.coords ++ g'.bounds ++ [g'.mask.getD ""]) g'.vars with
        | .error e => .error e
        | .ok vars => .ok { g' with vars := vars }

/-- What a user does with the mask of a grid. -/
inductive Op
  | set (a : Arr Bool)
  | remove
  | get (create : Bool)

/-- Carry out an operation. -/
def step (g : GridField) : Op → Res GridField
  | .set a => setGridMask g (.array a) false
  | .remove => setGridMask g .nothing false
  | .get c => match getMask g c false with
    | .error e => .error e
    | .ok r => .ok r.1

/-- Carry out operations one after the other. -/
def run : GridField → List Op → Res GridField
  | g, [] => .ok g
  | g, o :: os => match step g o with
    | .error e => .error e
    | .ok g' => run g' os

/-! ## SCRIP and ESMF unstructured files -/

/-- The mask variable of a file (`grid_imask` or `elementMask`): which values are zero, the mask from missing values, whether the
values have been loaded, and the mask of the variable. -/
structure FileMask where
  zero : List Nat → Bool
  missing : Option (List Nat → Bool) := none
  loaded : Bool := false
  mask : Option (List Nat → Bool) := none

/-- `load()` (variable/base.py:1675-1698, driver/base.py:625-630): missing values are masked in addition. -/
def FileMask.load (v : FileMask) : FileMask :=
  if v.loaded then v else { v with loaded := true, mask := orMask v.mask v.missing }

/-- A SCRIP grid: the variable `grid_imask`, if it is there, a mask variable made by `set_mask`, and the entry of the dimension map. -/
structure Scrip where
  imask : Option FileMask
  own : Option (List Nat → Bool) := none
  mask : Option String

/-- What a user does with it: read the values of `grid_imask`, set a mask of the right shape, get the mask. -/
inductive ScripOp
  | read
  | set (m : List Nat → Bool)
  | get

/-- `grid.get_mask()` (driver/nc_scrip.py:62-79). -/
def Scrip.getMask (s : Scrip) : Res (Scrip × Option (List Nat → Bool)) :=
  match s.mask with
  | none => .ok (s, none)
  | some _ => match s.imask with
    | none => .error .keyError
    | some v =>
      if v.loaded then .ok (s, v.mask)
      else .ok ({ s with imask := some { v.load with mask := some v.zero } }, some v.zero)

/-- `grid.set_mask(array)` (driver/base.py:719-728). -/
def Scrip.setMask (s : Scrip) (m : List Nat → Bool) : Res Scrip :=
  match s.mask with
  | none => .ok { s with own := some m, mask := some maskName }
  | some n =>
    if n = "grid_imask" then match s.imask with
      | none => .error .keyError
      | some v => .ok { s with imask := some { v with mask := some m } }
    else .ok { s with own := some m }

/-- Carry out an operation. -/
def Scrip.step (s : Scrip) : ScripOp → Res Scrip
  | .read => match s.imask with
    | none => .error .keyError
    | some v => .ok { s with imask := some v.load }
  | .set m => s.setMask m
  | .get => match s.getMask with
    | .error e => .error e
    | .ok r => .ok r.1

/-- Carry out operations one after the other. -/
def Scrip.run : Scrip → List ScripOp → Res Scrip
  | s, [] => .ok s
  | s, o :: os => match s.step o with
    | .error e => .error e
    | .ok s' => s'.run os

/-- `grid.get_mask()` of an ESMF unstructured file (driver/base.py:529-533 with driver/nc_esmf_unstruct.py:48-50, 66-68 and
variable/base.py:1651-1673). -/
def esmfMask (v : FileMask) : FileMask × Option (List Nat → Bool) := (v.load, v.load.mask)

end Ocgis.GridMask
