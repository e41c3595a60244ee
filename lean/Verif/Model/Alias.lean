/-!
# Copies, slices and deep copies of variables: which arrays are shared

The memory of a Python session, as far as variables are concerned: the buffers of the numpy arrays, the dictionaries with
the attributes of collections, the variable objects and the collections they belong to. An array is a view: a buffer and the
positions in it, in order. The shape of an array is not modelled: an element is designated by its place in the flattened array,
and a slice by the places it picks.

Values are integers; nothing here depends on the kind of number. Variables have an allocated value; variables that read their
value from a source are in `SourceRead`. The attributes of a variable are part of the object, because a copy of a variable always copies them
(variable/base.py:854).
-/
namespace Ocgis.Alias

/-- A numpy array: the buffer and the places of its elements in it. -/
structure View where
  buf : Nat
  idx : List Nat
deriving Repr, DecidableEq

/-- A `Variable` object (variable/base.py:221-320): its name, `_value`, `_mask`, `attrs`, `_bounds_name` and `_parent`. -/
structure VarObj where
  name : String
  val : View
  mask : Option View := none
  attrs : List (String × String) := []
  bounds : Option String := none
  parent : Option Nat := none
deriving Repr, DecidableEq

/-- A `VariableCollection` (variable/base.py:1701-1757): the variables by name, and its dictionary of attributes, `None` before
it is first asked for (variable/attributes.py:16-36). -/
structure Coll where
  members : List (String × Nat)
  attrs : Option Nat := none
deriving Repr, DecidableEq

/-- The memory. -/
structure World where
  vals : List (List Int) := []
  masks : List (List Bool) := []
  dicts : List (List (String × String)) := []
  objs : List VarObj := []
  colls : List Coll := []
deriving Repr, DecidableEq

/-- The elements of an array. -/
def readView {α : Type} [Inhabited α] (bufs : List (List α)) (v : View) : List α :=
  v.idx.map fun i => ((bufs[v.buf]?).getD [])[i]?.getD default

/-- `array[p] = x`: the buffer changes. A slice designates places of the array only; a place outside changes nothing. -/
def poke {α : Type} (bufs : List (List α)) (v : View) (p : Nat) (x : α) : List (List α) :=
  match v.idx[p]? with
  | none => bufs
  | some i => bufs.modify v.buf fun b => b.set i x

/-- `array[slc] = other`, one element after the other. -/
def pokes {α : Type} (bufs : List (List α)) (v : View) (ps : List (Nat × α)) : List (List α) :=
  ps.foldl (fun b q => poke b v q.1 q.2) bufs

/-- A new array with the elements: its buffer is the next one. -/
def fresh {α : Type} (bufs : List (List α)) (xs : List α) : View := ⟨bufs.length, List.range xs.length⟩

/-- What a user does to a variable. -/
inductive Op where
  /-- `var.set_value(xs)` -/
  | setValue (xs : List Int)
  /-- `var.set_mask(m)` -/
  | setMask (m : Option (List Bool))
  /-- `var.set_mask(m, update=True)` -/
  | updateMask (m : List Bool)
  /-- `var[slc] = other`: the places, with the new elements and, if `other` has a mask, the new elements of the mask -/
  | assign (ps : List (Nat × Int)) (ms : Option (List (Nat × Bool)))
  /-- the variable is reached by the mask of another variable, its bounds' parent or the source of a cascade: these places are masked -/
  | cascade (ps : List Nat)
  /-- `var.attrs[k] = x` -/
  | setAttr (k x : String)
deriving Repr, DecidableEq

/-- `d[k] = x` of a dictionary. -/
def setKey (d : List (String × String)) (k x : String) : List (String × String) :=
  if d.any (·.1 = k) then d.map fun e => if e.1 = k then (k, x) else e else d ++ [(k, x)]

/-- `var.set_value(xs)` (variable/base.py:765-823) for a variable with dimensions of fixed size: the array given is the value from now on;
`update_unlimited_dimension_length` refuses another shape (variable/base.py:2634-2648), and nothing changes. The value given is a new list or array. -/
def doSetValue (w : World) (o : Nat) (v : VarObj) (xs : List Int) : World :=
  if xs.length = v.val.idx.length then
    { w with vals := w.vals ++ [xs], objs := w.objs.set o { v with val := fresh w.vals xs } }
  else w

/-- `self._mask = np.array(mask)`: the end of `set_mask` (variable/base.py:1036-1047) with a mask of the right shape. -/
def storeMask (w : World) (o : Nat) (v : VarObj) (m : List Bool) : World :=
  { w with masks := w.masks ++ [m], objs := w.objs.set o { v with mask := some (fresh w.masks m) } }

/-- `var.set_mask(mask)` (variable/base.py:1026-1053): the array is copied; `assert mask.shape == self.shape`. What becomes
of the bounds is the operation `cascade` on the bounds. -/
def doSetMask (w : World) (o : Nat) (v : VarObj) : Option (List Bool) → World
  | none => { w with objs := w.objs.set o { v with mask := none } }
  | some m => if m.length = v.val.idx.length then storeMask w o v m else w

/-- `var.set_mask(mask, update=True)` (variable/base.py:1036-1047): a new array with the logical or. -/
def doUpdateMask (w : World) (o : Nat) (v : VarObj) (m : List Bool) : World :=
  if m.length = v.val.idx.length then
    match v.mask with
    | none => storeMask w o v m
    | some mv => storeMask w o v (List.zipWith (· || ·) m (readView w.masks mv))
  else w

/-- `mask = self.get_mask(create=True); mask[slc] = ...; self.set_mask(mask)` (variable/base.py:359-361, 369-370, 1012-1024) and, with `True`
for elements, the loop of `set_mask_by_variable` (variable/base.py:2529-2541): a mask that exists is written in
place, and then copied. -/
def doPokeMask (w : World) (o : Nat) (v : VarObj) (ms : List (Nat × Bool)) : World :=
  match v.mask with
  | none => storeMask w o v (ms.foldl (fun l q => l.set q.1 q.2) (List.replicate v.val.idx.length false))
  | some mv =>
    let masks := pokes w.masks mv ms
    storeMask { w with masks := masks } o v (readView masks mv)

/-- `var[slc] = other` (variable/base.py:339-370): the value is written in place. The bounds, written by the same function, are an operation
of their own. -/
def doAssign (w : World) (o : Nat) (v : VarObj) (ps : List (Nat × Int)) (ms : Option (List (Nat × Bool))) : World :=
  let w := { w with vals := pokes w.vals v.val ps }
  match ms with
  | none => w
  | some ms => doPokeMask w o v ms

/-- One operation on the variable object `o`. -/
def step (w : World) (o : Nat) (op : Op) : World :=
  match w.objs[o]? with
  | none => w
  | some v =>
    match op with
    | .setValue xs => doSetValue w o v xs
    | .setMask m => doSetMask w o v m
    | .updateMask m => doUpdateMask w o v m
    | .assign ps ms => doAssign w o v ps ms
    | .cascade ps => doPokeMask w o v (ps.map (·, true))
    | .setAttr k x => { w with objs := w.objs.set o { v with attrs := setKey v.attrs k x } }

/-- A session: operations on variable objects, one after the other. -/
def run (w : World) (ops : List (Nat × Op)) : World := ops.foldl (fun w q => step w q.1 q.2) w

/-! ## Copies and slices -/

/-- The variables of a copied collection (variable/base.py:1917-1920, 1779-1792): each is made from the one of the original by `f` and gets the
new collection for a parent. The key of a variable is its name. -/
def cloneMembers (f : World → VarObj → World × VarObj) (newc : Nat) : World → List (String × Nat) → World × List (String × Nat)
  | w, [] => (w, [])
  | w, (k, o) :: rest =>
    match w.objs[o]? with
    | none => cloneMembers f newc w rest
    | some v =>
      let r := f w v
      let w1 := { r.1 with objs := r.1.objs ++ [{ r.2 with parent := some newc }] }
      let s := cloneMembers f newc w1 rest
      (s.1, (k, r.1.objs.length) :: s.2)

/-- A copy of a collection (variable/base.py:1908-1922, collection/base.py:55-58): `copy(self)` keeps the dictionary of
attributes itself. Tags, dimensions and children are not modelled. -/
def cloneColl (f : World → VarObj → World × VarObj) (w : World) (c : Nat) : World × Nat :=
  match w.colls[c]? with
  | none => (w, c)
  | some cl =>
    let newc := w.colls.length
    let s := cloneMembers f newc w cl.members
    ({ s.1 with colls := s.1.colls ++ [{ members := s.2, attrs := cl.attrs }] }, newc)

/-- `_value.view()` and `_mask.view()` (variable/base.py:852-858): the same places of the same buffers. -/
def shared (w : World) (v : VarObj) : World × VarObj := (w, v)

/-- `collection.copy()` (variable/base.py:1908-1922) -/
def copyColl : World → Nat → World × Nat := cloneColl shared

/-- `collection[name]` (collection/base.py, `AbstractCollection.__getitem__`). -/
def member (w : World) (c : Nat) (name : String) : Option Nat :=
  (w.colls[c]?).bind fun cl => (cl.members.find? (·.1 = name)).map (·.2)

/-- The numpy selection of one dimension: by a `slice`, or by a list of indices or booleans; the places it picks from the flattened array
of the variable. -/
structure Sel where
  fancy : Bool
  ps : List Nat
deriving Repr, DecidableEq

/-- `array[slc]` (variable/base.py:326-334): a view for a `slice`, a new array for a list of indices or booleans. -/
def sliceView {α : Type} [Inhabited α] (bufs : List (List α)) (v : View) (s : Sel) : List (List α) × View :=
  let picked : View := { v with idx := s.ps.filterMap (v.idx[·]?) }
  if s.fancy then (bufs ++ [readView bufs picked], fresh bufs (readView bufs picked)) else (bufs, picked)

/-- `_getitem_main_` (variable/base.py:322-334). -/
def sliceObj (s : Sel) (w : World) (v : VarObj) : World × VarObj :=
  let a := sliceView w.vals v.val s
  match v.mask with
  | none => ({ w with vals := a.1 }, { v with val := a.2 })
  | some mv =>
    let b := sliceView w.masks mv s
    ({ w with vals := a.1, masks := b.1 }, { v with val := a.2, mask := some b.2 })

/-- `collection[{dimension: slc}]` (variable/base.py:1759-1793): `sel` has the places for each variable with the dimension; the others are
copied. -/
def sliceColl (sel : String → Option Sel) : World → Nat → World × Nat :=
  cloneColl fun w v => match sel v.name with | none => shared w v | some s => sliceObj s w v

/-- `var.copy()` (variable/base.py:846-861): with a parent, the variable with the name in a copy of the parent. -/
def copyVar (w : World) (o : Nat) : Option (World × Nat) :=
  match w.objs[o]? with
  | none => none
  | some v =>
    match v.parent with
    | none => some ({ w with objs := w.objs ++ [v] }, w.objs.length)
    | some c =>
      let r := copyColl w c
      (member r.1 r.2 v.name).map fun o' => (r.1, o')

/-- `var[slc]` of a variable with a parent (variable/base.py:52-67, 1759-1793). -/
def sliceVar (sel : String → Option Sel) (w : World) (o : Nat) : Option (World × Nat) :=
  match w.objs[o]? with
  | none => none
  | some v =>
    match v.parent with
    | none => none
    | some c =>
      let r := sliceColl sel w c
      (member r.1 r.2 v.name).map fun o' => (r.1, o')

/-- `deepcopied.__dict__ = deepcopy(deepcopied.__dict__)` (variable/base.py:875-876): new arrays with the same elements. -/
def own (w : World) (o : Nat) : World :=
  match w.objs[o]? with
  | none => w
  | some v =>
    let xs := readView w.vals v.val
    match v.mask with
    | none => { w with vals := w.vals ++ [xs], objs := w.objs.set o { v with val := fresh w.vals xs } }
    | some mv =>
      let m := readView w.masks mv
      { w with vals := w.vals ++ [xs], masks := w.masks ++ [m],
               objs := w.objs.set o { v with val := fresh w.vals xs, mask := some (fresh w.masks m) } }

/-- `self[variable.name] = variable` (variable/base.py:1863, collection/base.py) -/
def putMember (ms : List (String × Nat)) (k : String) (o : Nat) : List (String × Nat) :=
  if ms.any (·.1 = k) then ms.map fun e => if e.1 = k then (k, o) else e else ms ++ [(k, o)]

/-- `var.parent = None; self.add_variable(var, force=True)` (variable/base.py:1860-1864, 1875-1877) -/
def adoptOne (w : World) (target : Nat) (k : String) (o : Nat) : World :=
  { w with objs := w.objs.modify o fun v => { v with parent := some target },
           colls := w.colls.modify target fun cl => { cl with members := putMember cl.members k o } }

/-- `parent.add_variable(variable, force=True)` for a variable with a parent of its own (variable/base.py:1865-1877): *all* variables of that parent come along, and
replace the ones with their names. -/
def adopt (w : World) (target : Nat) : List (String × Nat) → World
  | [] => w
  | (k, o) :: rest => adopt (adoptOne w target k o) target rest

/-- The parent of a variable (variable/base.py, `AbstractContainer.parent`): a variable without one gets a collection with just itself. -/
def withParent (w : World) (o : Nat) : World :=
  match w.objs[o]? with
  | none => w
  | some v =>
    match v.parent with
    | some _ => w
    | none => { w with objs := w.objs.set o { v with parent := some w.colls.length },
                       colls := w.colls ++ [{ members := [(v.name, o)] }] }

/-- `var.deepcopy()` of a variable without bounds (variable/base.py:870-877). Adding the copy to its own parent changes nothing. -/
def deepcopyPlain (w : World) (o : Nat) : Option (World × Nat) :=
  (copyVar w o).map fun r => (withParent (own r.1 r.2) r.2, r.2)

/-- The bounds of a variable: the variable of its parent with the name (variable/base.py, `Variable.bounds`). -/
def boundsOf (w : World) (o : Nat) : Option Nat :=
  (w.objs[o]?).bind fun v => v.parent.bind fun c => v.bounds.bind fun b => member w c b

/-- `var.deepcopy()` (variable/base.py:863-881): the deep copy of the bounds comes with a copy of the parent, which `set_bounds` adds to
the parent of the copy (variable/base.py:1450-1453). That the mask is set once more to a copy of itself (variable/base.py:1458-1461) is left out. -/
def deepcopy (w : World) (o : Nat) : Option (World × Nat) :=
  (deepcopyPlain w o).bind fun r =>
    match boundsOf r.1 r.2 with
    | none => some r
    | some b =>
      (deepcopyPlain r.1 b).bind fun s =>
        match (s.1.objs[r.2]?).bind (·.parent), (s.1.objs[s.2]?).bind (·.parent) with
        | some p2, some p3 => some (adopt s.1 p2 (((s.1.colls[p3]?).map (·.members)).getD []), r.2)
        | _, _ => some (s.1, r.2)

/-- `collection.set_mask(variable, update)` after the mask of the variable was set (variable/base.py:1047-1049, 2244-2266): each other
variable that shares a dimension is reached by the mask, at its own places. -/
def cascadeColl (places : String → Option (List Nat)) (w : World) (c : Nat) : World :=
  match w.colls[c]? with
  | none => w
  | some cl => run w (cl.members.filterMap fun e => (places e.1).map fun ps => (e.2, Op.cascade ps))

/-- `collection.attrs[k] = x` (variable/attributes.py:20-36): the dictionary is made when it is first asked for. -/
def setCollAttr (w : World) (c : Nat) (k x : String) : World :=
  match w.colls[c]? with
  | none => w
  | some cl =>
    match cl.attrs with
    | some d => { w with dicts := w.dicts.modify d fun e => setKey e k x }
    | none => { w with dicts := w.dicts ++ [[(k, x)]], colls := w.colls.set c { cl with attrs := some w.dicts.length } }

/-- `collection.attrs` as the user sees it. -/
def collAttrs (w : World) (c : Nat) : List (String × String) :=
  ((w.colls[c]?).bind (·.attrs)).elim [] fun d => (w.dicts[d]?).getD []

end Ocgis.Alias
