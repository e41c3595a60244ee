import Verif.Model.Masks
/-!
# Values, masks, bounds and dimensions of variables

`Variable` (variable/base.py) with what its methods do to the variable, its dimensions and the collection it is in, for variables
that are not empty, on one process and without source indices.  Dimensions are objects: they are held by reference, and a
change of one is seen by all variables that have it.  Data types and fill values are left out; arrays hold their elements in
row-major order.
-/
namespace Ocgis.VarShape
open Ocgis.Masks (MVar setMaskByVariable allIdx)

/-- A dimension object: `_size` (`none`: unlimited) and `_size_current` (variable/dimension.py:44-67). -/
structure Dim where
  name : String
  size : Option Nat
  cur : Option Nat
  deriving DecidableEq, Repr

/-- `len(dimension)` (variable/dimension.py:99-106). -/
def Dim.len (d : Dim) : Nat := match d.size with
  | some n => n
  | none => d.cur.getD 0

/-- An array: its shape and its elements in row-major order. -/
structure NArr (α : Type) where
  shape : List Nat
  data : List α
  deriving DecidableEq, Repr

/-- The number of elements of an array. -/
def count : List Nat → Nat
  | [] => 1
  | n :: ns => n * count ns

/-- The place of an index in row-major order. -/
def ravel : List Nat → List Nat → Nat
  | _ :: ns, i :: is => i * count ns + ravel ns is
  | _, _ => 0

/-- A variable: its name, the collection it is in and whether it is stored there under its name, the names of its dimensions
(`_dimensions`), value, mask, and its bounds (by identity; ocgis looks them up in the collection by name). -/
structure Vr (α : Type) where
  name : String
  coll : Nat
  stored : Bool := true
  dims : Option (List String) := none
  value : Option (NArr α) := none
  mask : Option (NArr Bool) := none
  bounds : Option Nat := none
  deriving DecidableEq, Repr

/-- Dimension objects, the dimensions of each collection by name, and variables. -/
structure World (α : Type) where
  heap : List Dim := []
  colls : List (List (String × Nat)) := []
  vars : List (Vr α) := []
  deriving DecidableEq, Repr

/-- What is left after an operation, and the exception it ended with. -/
abbrev Out (α : Type) := World α × Option PyErr

variable {α : Type}

/-- The dimensions of a collection. -/
def World.collDims (w : World α) (c : Nat) : List (String × Nat) := w.colls.getD c []

/-- `self.parent.dimensions[name]`. -/
def World.find (w : World α) (c : Nat) (n : String) : Option Nat := (w.collDims c).lookup n

/-- The length of a dimension object. -/
def World.len (w : World α) (r : Nat) : Nat := match w.heap[r]? with
  | some d => d.len
  | none => 0

/-- `_dimensions` with `None` as no dimensions (variable/base.py:437-446). -/
def Vr.names (v : Vr α) : List String := v.dims.getD []

/-- Look up names one after the other. -/
def World.findAll (w : World α) (c : Nat) : List String → Option (List Nat)
  | [] => some []
  | n :: ns =>
    match w.find c n, w.findAll c ns with
    | some r, some rs => some (r :: rs)
    | _, _ => none

/-- `variable.dimensions` (variable/base.py:448-456). -/
def World.refs (w : World α) (v : Vr α) : Option (List Nat) := w.findAll v.coll v.names

/-- `variable.shape` (variable/base.py:2437-2448). -/
def World.shape (w : World α) (v : Vr α) : Res (List Nat) :=
  match v.dims, v.value with
  | none, none => .ok []
  | none, some a => .ok a.shape
  | some _, _ => match w.refs v with
    | none => .error .keyError
    | some rs => .ok (rs.map w.len)

/-- Change a variable. -/
def World.modify (w : World α) (i : Nat) (f : Vr α → Vr α) : World α := { w with vars := w.vars.modify i f }

/-- The check of `are_variable_and_dimensions_shape_equal` (variable/base.py:2338-2355). -/
def sameShape (w : World α) : List Nat → List Nat → Bool
  | [], [] => true
  | n :: ns, r :: rs => (match w.heap[r]? with
    | some d => d.size.isNone || n == d.len
    | none => false) && sameShape w ns rs
  | _, _ => false

/-- `d._size_current = variable_value.shape[idx]` for the unlimited dimensions (variable/base.py:2646-2648). -/
def grow (heap : List Dim) : List Nat → List Nat → List Dim
  | n :: ns, r :: rs => grow (heap.modify r fun d => if d.size.isNone then { d with cur := some n } else d) ns rs
  | _, _ => heap

/-- `update_unlimited_dimension_length(value, dimensions)` (variable/base.py:2634-2648). -/
def updateLengths (w : World α) (value : Option (NArr α)) (rs : Option (List Nat)) : Out α :=
  match rs with
  | none => (w, some .keyError)
  | some rs =>
    match value with
    | none => (w, none)
    | some a =>
      if sameShape w a.shape rs then ({ w with heap := grow w.heap a.shape rs }, none)
      else (w, some .valueError)

/-- `collection.add_dimension(dimension, force)` (variable/base.py:1838-1843). -/
def addDimension (w : World α) (c r : Nat) (force : Bool) : Out α :=
  match w.heap[r]? with
  | none => (w, some .attributeError)
  | some d =>
    match w.find c d.name with
    | none => ({ w with colls := w.colls.modify c fun l => l ++ [(d.name, r)] }, none)
    | some e =>
      if force then ({ w with colls := w.colls.modify c fun l => l.map fun p => if p.1 == d.name then (p.1, r) else p }, none)
      else if w.heap[e]? = some d then (w, none)
      else (w, some .dimensionMismatch)

/-- A dimension in a call: an object or a name. -/
inductive DimArg
  | obj (r : Nat)
  | str (n : String)
  deriving DecidableEq, Repr

/-- The loop of `set_dimensions` (variable/base.py:470-478) for a variable in collection `c` of shape `shape` (as it is before
the dimensions are set): the names. -/
def takeDims (c : Nat) (shape : Res (List Nat)) (force : Bool) : World α → Nat → List DimArg → Out α × List String
  | w, _, [] => ((w, none), [])
  | w, k, .obj r :: as =>
    match addDimension w c r force with
    | (w, some e) => ((w, some e), [])
    | (w, none) =>
      let rest := takeDims c shape force w (k + 1) as
      (rest.1, (match w.heap[r]? with | some d => d.name | none => "") :: rest.2)
  | w, k, .str n :: as =>
    match w.find c n with
    | some _ =>
      let rest := takeDims c shape force w (k + 1) as
      (rest.1, n :: rest.2)
    | none =>
      match shape with
      | .error e => ((w, some e), [])
      | .ok s =>
        match s[k]? with
        | none => ((w, some .indexError), [])
        | some m =>
          match addDimension { w with heap := w.heap ++ [⟨n, some m, some m⟩] } c w.heap.length false with
          | (w, some e) => ((w, some e), [])
          | (w, none) =>
            let rest := takeDims c shape force w (k + 1) as
            (rest.1, n :: rest.2)

/-- `set_dimensions` up to the bounds (variable/base.py:467-484). -/
def setDimsCore (w : World α) (i : Nat) (args : Option (List DimArg)) (force : Bool) : Out α :=
  match w.vars[i]? with
  | none => (w, some .attributeError)
  | some v =>
    match args with
    | none =>
      let w := w.modify i fun v => { v with dims := none }
      updateLengths w v.value (some [])
    | some as =>
      match takeDims v.coll (w.shape v) force w 0 as with
      | ((w, some e), _) => (w, some e)
      | ((w, none), names) =>
        if names.Nodup then
          let w := w.modify i fun v => { v with dims := some names }
          updateLengths w v.value (w.refs { v with dims := some names })
        else (w, some .valueError)

/-- `set_dimensions(dimensions, force)` (variable/base.py:458-493); the bounds have no bounds. -/
def setDims (w : World α) (i : Nat) (args : Option (List DimArg)) (force : Bool) : Out α :=
  match setDimsCore w i args force with
  | (w, some e) => (w, some e)
  | (w, none) =>
    match w.vars[i]? with
    | none => (w, none)
    | some v =>
      match v.bounds with
      | none => (w, none)
      | some b =>
        match args with
        | none => setDimsCore w b none false
        | some _ =>
          match w.vars[b]? with
          | none => (w, some .keyError)
          | some bv =>
            match w.refs v, w.refs bv with
            | some rs, some bs => setDimsCore w b (some ((rs ++ bs.drop rs.length).map .obj)) false
            | _, _ => (w, some .keyError)

/-- What `set_mask_by_variable` sees of a variable. -/
def mvar (v : Vr α) (shape : List Nat) : MVar :=
  { name := v.name, names := v.names, shape := shape, mask := v.mask.map fun m idx => m.data.getD (ravel m.shape idx) false }

/-- The mask of the bounds follows that of the variable (variable/base.py:1050-1053, 2509-2541). -/
def maskBounds (w : World α) (i : Nat) : Out α :=
  match w.vars[i]? with
  | none => (w, none)
  | some v =>
    match v.bounds with
    | none => (w, none)
    | some b =>
      match w.vars[b]? with
      | none => (w, some .keyError)
      | some bv =>
        match v.mask with
        | none => (w, none)
        | some _ =>
          match w.shape v, w.shape bv with
          | .ok s, .ok bs =>
            match setMaskByVariable (mvar v s) (mvar bv bs) false with
            | .error e => (w, some e)
            | .ok t => (w.modify b fun bv => { bv with mask := some ⟨bs, (allIdx bs).map t.masked⟩ }, none)
          | _, _ => (w, some .keyError)

/-- `logical_or` of a mask with the one there is. -/
def orOld (old : Option (NArr Bool)) (m : NArr Bool) : NArr Bool :=
  match old with
  | none => m
  | some o => ⟨m.shape, List.zipWith (· || ·) m.data o.data⟩

/-- `set_mask(mask, update=update)` (variable/base.py:1026-1053) without `cascade`. -/
def setMask (w : World α) (i : Nat) (mask : Option (NArr Bool)) (update : Bool) : Out α :=
  match w.vars[i]? with
  | none => (w, some .attributeError)
  | some v =>
    match mask with
    | none =>
      let w := if update then w else w.modify i fun v => { v with mask := none }
      maskBounds w i
    | some m =>
      match w.shape v with
      | .error e => (w, some e)
      | .ok s =>
        if m.shape = s then
          maskBounds (w.modify i fun v => { v with mask := some (if update then orOld v.mask m else m) }) i
        else (w, some .assertionError)

/-- `set_value(value, update_mask)` (variable/base.py:765-823) outside of creation: an array, or a masked array with the mask
`mask`. -/
def setValue (w : World α) (i : Nat) (value : Option (NArr α)) (mask : Option (NArr Bool)) (update : Bool) : Out α :=
  match w.vars[i]? with
  | none => (w, some .attributeError)
  | some v =>
    match value with
    | none =>
      if v.names = [] then (w.modify i fun v => { v with value := none }, none) else (w, some .valueError)
    | some a =>
      match updateLengths w (some a) (w.refs v) with
      | (w, some e) => (w, some e)
      | (w, none) =>
        let w := w.modify i fun v => { v with value := some a }
        match mask with
        | none => (w, none)
        | some m => setMask w i (some m) update

/-- A filled array. -/
def filled (shape : List Nat) (fill : α) : NArr α := ⟨shape, List.replicate (count shape) fill⟩

/-- `get_value()` (variable/base.py:746-759, 1305-1312): a value is made when there is none. -/
def getValue (w : World α) (i : Nat) (fill : α) : Out α :=
  match w.vars[i]? with
  | none => (w, some .attributeError)
  | some v =>
    match v.value with
    | some _ => (w, none)
    | none =>
      if v.names = [] then (w, none)
      else
        match w.refs v with
        | none => (w, some .keyError)
        | some rs =>
          if rs.any fun r => (w.heap[r]?.map fun d => d.size.isNone && d.cur.isNone).getD true then (w, some .valueError)
          else (w.modify i fun v => { v with value := some (filled (rs.map w.len) fill) }, none)

/-- `remove_value()` (variable/base.py:761-763). -/
def removeValue (w : World α) (i : Nat) : Out α :=
  match w.vars[i]? with
  | none => (w, some .attributeError)
  | some _ => (w.modify i fun v => { v with value := none }, none)

/-- `allocate_value(fill)` (variable/base.py:1055-1064). -/
def allocate (w : World α) (i : Nat) (fill : α) : Out α :=
  match w.vars[i]? with
  | none => (w, some .attributeError)
  | some v =>
    match w.refs v with
    | none => (w, some .keyError)
    | some rs => setValue w i (some (filled (rs.map w.len) fill)) none false

/-- `get_mask(create=True)` (variable/base.py:1012-1024). -/
def createMask (w : World α) (i : Nat) : Out α :=
  match w.vars[i]? with
  | none => (w, some .attributeError)
  | some v =>
    match v.mask with
    | some _ => (w, none)
    | none =>
      match w.shape v with
      | .error e => (w, some e)
      | .ok s => setMask w i (some (filled s false)) false

/-- One operation after another, as long as there is no exception. -/
def andThen (o : Out α) (f : World α → Out α) : Out α :=
  match o with
  | (w, some e) => (w, some e)
  | (w, none) => f w

/-- `array.reshape(*new_shape)`. -/
def reshapeTo {β : Type} (shape : List Nat) (a : NArr β) : Res (NArr β) :=
  if count a.shape = count shape then .ok ⟨shape, a.data⟩ else .error .valueError

/-- `reshape(dimensions)` (variable/base.py:1405-1427) with dimension objects. -/
def reshape (w : World α) (i : Nat) (ds : List Nat) (fill : α) : Out α :=
  match w.vars[i]? with
  | none => (w, some .attributeError)
  | some v =>
    if v.bounds.isSome then (w, some .assertionError)
    else
      let shape := ds.map w.len
      andThen (getValue w i fill) fun w =>
        match w.vars[i]? with
        | none => (w, none)
        | some v =>
          let w := w.modify i fun v => { v with mask := none, value := none }
          andThen (setDims w i none false) fun w =>
            match (v.mask.mapM (reshapeTo shape) : Res _) with
            | .error e => (w, some e)
            | .ok mask =>
              andThen (setDims w i (some (ds.map .obj)) false) fun w =>
                match v.value with
                | none => (w, some .attributeError)
                | some a =>
                  match reshapeTo shape a with
                  | .error e => (w, some e)
                  | .ok a => andThen (setValue w i (some a) none false) fun w => setMask w i mask false

/-- `collection[variable.name] = variable`: a variable of that name is no longer stored. -/
def unstore (c : Nat) (n : String) (vs : List (Vr α)) : List (Vr α) :=
  vs.map fun v => if v.coll = c ∧ v.name = n then { v with stored := false } else v

/-- A variable without parent gets a collection of its own (variable/base.py:129-133, 1593-1594). -/
def collsFor (w : World α) (coll : Option Nat) : List (List (String × Nat)) :=
  match coll with
  | none => w.colls ++ [[]]
  | some _ => w.colls

/-- `Variable(name, value, dimensions, mask, parent)` (variable/base.py:267-320): the new variable is the last one.  It is stored
in its collection before its value and dimensions are checked. -/
def create (w : World α) (name : String) (coll : Option Nat) (value : Option (NArr α)) (dims : Option (List DimArg))
    (mask : Option (NArr Bool)) : Out α :=
  if value.isSome ∧ dims = none then (w, some .valueError)
  else
    let c := coll.getD w.colls.length
    let colls := collsFor w coll
    if colls.length ≤ c then (w, some .attributeError)
    else
      let i := w.vars.length
      let w : World α := { w with colls := colls, vars := unstore c name w.vars ++ [{ name := name, coll := c, value := value }] }
      andThen (setDimsCore w i dims false) fun w =>
        match mask with
        | none => (w, none)
        | some m => setMask w i (some m) false

/-- The dimensions of the other collection are added (variable/base.py:1873-1874). -/
def addDims (c : Nat) (force : Bool) : World α → List Nat → Out α
  | w, [] => (w, none)
  | w, r :: rs =>
    match addDimension w c r force with
    | (w, some e) => (w, some e)
    | (w, none) => addDims c force w rs

/-- The variables that are stored in the collection. -/
def World.members (w : World α) (c : Nat) : List Nat := (List.range w.vars.length).filter fun j => match w.vars[j]? with
  | some u => u.stored && u.coll == c
  | none => false

/-- A variable of that name is stored in the collection. -/
def World.has (w : World α) (c : Nat) (n : String) : Bool := w.vars.any fun v => v.stored && v.coll == c && v.name == n

/-- The variables of the other collection are added (variable/base.py:1860-1864, 1875-1877).  A variable that is refused has lost
its collection. -/
def moveVars (c : Nat) (force : Bool) : World α → List Nat → Out α
  | w, [] => (w, none)
  | w, j :: js =>
    match w.vars[j]? with
    | none => moveVars c force w js
    | some v =>
      if !force && w.has c v.name then
        ({ w with colls := w.colls ++ [[]], vars := w.vars.modify j fun v => { v with coll := w.colls.length, stored := false } }, some .variableInCollection)
      else
        moveVars c force { w with vars := (unstore c v.name w.vars).modify j fun v => { v with coll := c, stored := true } } js

/-- `set_bounds(value, force)` (variable/base.py:1429-1461) without units and dimension maps. -/
def setBounds (w : World α) (i : Nat) (b : Option Nat) (force : Bool) : Out α :=
  match w.vars[i]? with
  | none => (w, some .attributeError)
  | some v =>
    match b with
    | none =>
      let w := match v.bounds with
        | none => w
        | some b => w.modify b fun bv => { bv with stored := false }
      (w.modify i fun v => { v with bounds := none }, none)
    | some b =>
      match w.vars[b]? with
      | none => (w, some .attributeError)
      | some bv =>
        let w := w.modify i fun v => { v with bounds := some b }
        let js := w.members bv.coll
        andThen (addDims v.coll force w ((w.collDims bv.coll).map Prod.snd)) fun w =>
          andThen (moveVars v.coll force w js) fun w =>
            match w.vars[i]? with
            | none => (w, none)
            | some v => match v.value with
              | none => (w, none)
              | some _ => setMask w i v.mask false

/-! ## Histories -/

/-- What a user can do. -/
inductive Op (α : Type)
  | newDim (name : String) (size cur : Option Nat)
  | create (name : String) (coll : Option Nat) (value : Option (NArr α)) (dims : Option (List DimArg)) (mask : Option (NArr Bool))
  | setDims (i : Nat) (args : Option (List DimArg)) (force : Bool)
  | setMask (i : Nat) (mask : Option (NArr Bool)) (update : Bool)
  | setValue (i : Nat) (value : Option (NArr α)) (mask : Option (NArr Bool)) (update : Bool)
  | getValue (i : Nat) (fill : α)
  | removeValue (i : Nat)
  | allocate (i : Nat) (fill : α)
  | createMask (i : Nat)
  | reshape (i : Nat) (ds : List Nat) (fill : α)
  | setBounds (i : Nat) (b : Option Nat) (force : Bool)
  deriving Repr

/-- `Dimension(name, size, size_current)` (variable/dimension.py:44-67, 367-389): `set_size(self.size or self.size_current)`. -/
def newDim (n : String) (s c : Option Nat) : Dim :=
  match s with
  | none => ⟨n, none, c⟩
  | some 0 => ⟨n, some (c.getD 0), some (c.getD 0)⟩
  | some (m + 1) => ⟨n, some (m + 1), some (m + 1)⟩

/-- Carry out an operation. -/
def step (w : World α) : Op α → Out α
  | .newDim n s c => ({ w with heap := w.heap ++ [newDim n s c] }, none)
  | .create n c v d m => create w n c v d m
  | .setDims i a f => setDims w i a f
  | .setMask i m u => setMask w i m u
  | .setValue i v m u => setValue w i v m u
  | .getValue i f => getValue w i f
  | .removeValue i => removeValue w i
  | .allocate i f => allocate w i f
  | .createMask i => createMask w i
  | .reshape i ds f => reshape w i ds f
  | .setBounds i b f => setBounds w i b f

/-- Carry out operations one after the other; the caller handles exceptions. -/
def run : World α → List (Op α) → World α
  | w, [] => w
  | w, o :: os => run (step w o).1 os

end Ocgis.VarShape
