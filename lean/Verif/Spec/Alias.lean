import Verif.Model.Alias

/-! Vocabulary for the statements about copies and slices of variables. -/

namespace Ocgis.Alias

/-- What a user sees of a variable. -/
structure Contents where
  name : String
  val : List Int
  mask : Option (List Bool)
  attrs : List (String × String)
  bounds : Option String
deriving Repr, DecidableEq

/-- The contents of a variable object. -/
def contents (w : World) (o : Nat) : Option Contents :=
  (w.objs[o]?).map fun v =>
    { name := v.name, val := readView w.vals v.val, mask := v.mask.map (readView w.masks), attrs := v.attrs, bounds := v.bounds }

/-- The list with new elements at some places. -/
def putAll {α : Type} (l : List α) (ps : List (Nat × α)) : List α := ps.foldl (fun l q => l.set q.1 q.2) l

/-- What an operation does to a variable that shares nothing with any other. -/
def Op.onAlone (c : Contents) : Op → Contents
  | .setValue xs => if xs.length = c.val.length then { c with val := xs } else c
  | .setMask none => { c with mask := none }
  | .setMask (some m) => if m.length = c.val.length then { c with mask := some m } else c
  | .updateMask m =>
    if m.length = c.val.length then
      { c with mask := some (match c.mask with | none => m | some old => List.zipWith (· || ·) m old) }
    else c
  | .assign ps none => { c with val := putAll c.val ps }
  | .assign ps (some ms) =>
    { c with val := putAll c.val ps, mask := some (putAll (c.mask.getD (List.replicate c.val.length false)) ms) }
  | .cascade ps => { c with mask := some (putAll (c.mask.getD (List.replicate c.val.length false)) (ps.map (·, true))) }
  | .setAttr k x => { c with attrs := setKey c.attrs k x }

/-- The contents after the operations of the session on the one object `o`, the others left out. -/
def alone (o : Nat) (c : Contents) (ops : List (Nat × Op)) : Contents :=
  ((ops.filter (·.1 = o)).map (·.2)).foldl Op.onAlone c

/-- The operation replaces arrays and writes into none. -/
def Op.replaces : Op → Bool
  | .assign _ _ => false
  | .cascade _ => false
  | _ => true

/-- The array lies within its buffer, each place once. -/
def ViewOk {α : Type} (bufs : List (List α)) (v : View) : Prop :=
  ∃ b, bufs[v.buf]? = some b ∧ v.idx.Nodup ∧ ∀ i ∈ v.idx, i < b.length

/-- The arrays of the variable exist, and the mask has the size of the value. -/
def ObjOk (w : World) (v : VarObj) : Prop :=
  ViewOk w.vals v.val ∧ ∀ mv, v.mask = some mv → ViewOk w.masks mv ∧ mv.idx.length = v.val.idx.length

/-- All variables are sound, variables are members of collections that exist, members exist and are found under their names. -/
structure WorldOk (w : World) : Prop where
  objs : ∀ v, v ∈ w.objs → ObjOk w v
  parents : ∀ v, v ∈ w.objs → ∀ c, v.parent = some c → c < w.colls.length
  members : ∀ (c : Nat) (cl : Coll), w.colls[c]? = some cl → ∀ e, e ∈ cl.members → ∃ v, w.objs[e.2]? = some v ∧ v.name = e.1 ∧ v.parent = some c
  keys : ∀ cl, cl ∈ w.colls → (cl.members.map (·.1)).Nodup

/-- The arrays have no element in common. -/
def Disjoint (v v' : View) : Prop := v.buf = v'.buf → ∀ i ∈ v.idx, i ∉ v'.idx

/-- Two variable objects share no memory. -/
def Separate (w : World) (a b : Nat) : Prop :=
  ∀ va vb, w.objs[a]? = some va → w.objs[b]? = some vb →
    Disjoint va.val vb.val ∧ ∀ ma mb, va.mask = some ma → vb.mask = some mb → Disjoint ma mb

/-- The elements a selection picks. -/
def pick {α : Type} (ps : List Nat) (l : List α) : List α := ps.filterMap (l[·]?)

/-- The selection is one numpy can make: a `slice` picks no element twice. -/
def Sel.Ok (s : Sel) : Prop := s.fancy = false → s.ps.Nodup

/-- The variable with the selected elements. -/
def Contents.pick (c : Contents) (ps : List Nat) : Contents :=
  { c with val := Alias.pick ps c.val, mask := c.mask.map (Alias.pick ps) }

/-- The slices of all variables can be made. -/
def SelsOk (sel : String → Option Sel) : Prop := ∀ n s, sel n = some s → s.Ok

end Ocgis.Alias
