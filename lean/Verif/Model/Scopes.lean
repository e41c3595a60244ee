import Verif.Py
/-!
# Emptiness of nested collections; scopes; names
-/
namespace Ocgis.Scopes

/-! ## Emptiness -/

/-- A collection with its children: whether it was made empty (`_is_empty`), and for each variable whether it is empty. -/
inductive Tree where
  | node (flag : Option Bool) (vars : List Bool) (children : List Tree)

mutual
/-- `get_is_empty_recursive(target)` (variable/base.py:2406-2414). -/
def reportedEmpty : Tree → Bool
  | .node (some b) _ _ => b
  | .node none vars children => if vars.any id then true else loopChildren children false
/-- The loop over the children: `ret` is assigned anew each time. -/
def loopChildren : List Tree → Bool → Bool
  | [], ret => ret
  | t :: ts, _ => loopChildren ts (reportedEmpty t)
end

/-! ## Renaming dimensions -/

/-- The names of dimension objects, by object identity. -/
abbrev Heap := Nat → String

/-- `d._name = name`. -/
def Heap.put (h : Heap) (d : Nat) (name : String) : Heap := fun x => if x = d then name else h x

/-- A name mapping: new name to old names. -/
abbrev NameMapping := List (String × List String)

/-- The first entry that lists the name (base.py:267-270). -/
def newName (m : NameMapping) (n : String) : String := ((m.find? fun kv => kv.2.contains n).map (·.1)).getD n

/-- Rename the dimension objects one after the other. -/
def renameAll (m : NameMapping) : Heap → List Nat → Heap
  | h, [] => h
  | h, d :: ds => renameAll m (h.put d (newName m (h d))) ds

/-- `for d, o in zip(dimensions, original_names): d._name = o`. -/
def restoreAll : Heap → List (Nat × String) → Heap
  | h, [] => h
  | h, (d, o) :: rest => restoreAll (h.put d o) rest

/-- `with renamed_dimensions(dimensions, name_mapping): body` (base.py:261-274): the heap afterwards, and the exception. -/
def renamedDimensions (dims : List Nat) (m : NameMapping) (body : Heap → Heap × Option PyErr) (h : Heap) : Heap × Option PyErr :=
  let orig := dims.map h
  let r := body (renameAll m h dims)
  (restoreAll r.1 (dims.zip orig), r.2)

/-! ## Renaming dimensions on the variables of a collection -/

/-- A collection: its dictionary of dimension objects and its variables' dimension names. -/
structure VC where
  heap : Heap
  dims : List (String × Nat)
  vars : List (String × List String)

/-- `d[key] = value`. -/
def putKey (d : List (String × Nat)) (key : String) (x : Nat) : List (String × Nat) :=
  if d.any (fun kv => kv.1 == key) then d.map fun kv => if kv.1 = key then (key, x) else kv else d ++ [(key, x)]

/-- One turn of the first loop (base.py:288-295): the dimension `vi` gets the name `k`. -/
def renameDim (k : String) (vi : Nat) (hd : Heap × List (String × Nat)) : Res (Heap × List (String × Nat)) :=
  let new := putKey hd.2 k vi
  let original := hd.1 vi
  if original = k then .ok (hd.1.put vi k, new)
  else if new.any (fun kv => kv.1 == original) then .ok (hd.1.put vi k, new.filter fun kv => kv.1 != original)
  else .error .keyError

/-- The first loop over the dimensions, for one entry of the mapping. The heap is changed even if the loop ends with an exception. -/
def renameEntry (k : String) (olds : List String) : List (String × Nat) → Heap × List (String × Nat) → Heap × Res (List (String × Nat))
  | [], hd => (hd.1, .ok hd.2)
  | (ki, vi) :: rest, hd =>
    if olds.contains ki then
      match renameDim k vi hd with
      | .error e => (hd.1.put vi k, .error e)
      | .ok hd' => renameEntry k olds rest hd'
    else renameEntry k olds rest hd

/-- The first loop (base.py:287-295). -/
def renameEntries (orig : List (String × Nat)) : NameMapping → Heap × List (String × Nat) → Heap × Res (List (String × Nat))
  | [], hd => (hd.1, .ok hd.2)
  | (k, olds) :: rest, hd =>
    match renameEntry k olds orig hd with
    | (h, .error e) => (h, .error e)
    | (h, .ok d) => renameEntries orig rest (h, d)

/-- `names[names.index(old)] = new`. -/
def replaceFirst (names : List String) (old new : String) : Res (List String) :=
  if old ∈ names then .ok (names.set (names.idxOf old) new) else .error .valueError

/-- The new dimension names of a variable (base.py:296-302): for each of its names, for each entry that lists it. -/
def renameVarNames (m : NameMapping) : List String → List String → Res (List String)
  | [], acc => .ok acc
  | n :: rest, acc => do
    let acc ← (m.filter fun kv => kv.2.contains n).foldlM (fun a kv => replaceFirst a n kv.1) acc
    renameVarNames m rest acc

/-- One variable. -/
def renameVar (m : NameMapping) (v : String × List String) : Res (String × List String) := do
  let names ← renameVarNames m v.2 v.2
  return (v.1, names)

/-- What the body is given (base.py:287-307), with the heap as far as it was changed. -/
def enterRenamed (m : NameMapping) (c : VC) : Heap × Res VC :=
  match renameEntries c.dims m (c.heap, c.dims) with
  | (h, .error e) => (h, .error e)
  | (h, .ok dims) =>
    match c.vars.mapM (renameVar m) with
    | .error e => (h, .error e)
    | .ok vars => (h, .ok ⟨h, dims, vars⟩)

/-- Give the variables back their dimension names (base.py:312-313); a variable that was not there is a `KeyError`. -/
def restoreVars (orig : List (String × List String)) : List (String × List String) → List (String × List String) × Option PyErr
  | [] => ([], none)
  | (n, d) :: rest =>
    match orig.find? fun kv => kv.1 == n with
    | none => ((n, d) :: rest, some .keyError)
    | some kv =>
      match restoreVars orig rest with
      | (r, e) => ((n, kv.2) :: r, e)

/-- `for k, v in original_vc_dimensions.items(): v._name = k`. -/
def restoreNames : Heap → List (String × Nat) → Heap
  | h, [] => h
  | h, (k, v) :: rest => restoreNames (h.put v k) rest

/-- The `finally` clause (base.py:308-313). -/
def restoreVC (orig c : VC) (e : Option PyErr) : VC × Option PyErr :=
  match restoreVars orig.vars c.vars with
  | (vars, e') => (⟨restoreNames c.heap orig.dims, orig.dims, vars⟩, e'.or e)

/-- `with renamed_dimensions_on_variables(vc, name_mapping): body` (base.py:277-313). The body is given the collection with the
renamed dimensions, and may leave it in any state. -/
def renamedOnVariables (m : NameMapping) (body : VC → VC × Option PyErr) (c : VC) : VC × Option PyErr :=
  match enterRenamed m c with
  | (h, .error e) => restoreVC c { c with heap := h } (some e)
  | (_, .ok c') =>
    match body c' with
    | (c'', e) => restoreVC c c'' e

/-! ## The abstraction of a grid -/

/-- A grid: the abstraction stored in the dimension map (`none`: automatic) and the abstractions available, the highest first. -/
structure AGrid where
  stored : Option String
  available : List String
  deriving DecidableEq

/-- `grid.abstraction` (spatial/grid.py:118-131). -/
def AGrid.abstraction (g : AGrid) : String := g.stored.getD (g.available.headD "")

/-- `with grid_abstraction_scope(grid, abstraction, strict): body` (base.py:182-193). -/
def abstractionScope (abstraction : String) (strict : Bool) (body : AGrid → AGrid × Option PyErr) (g : AGrid) : AGrid × Option PyErr :=
  let orig := g.abstraction
  if abstraction ∈ g.available then
    let r := body { g with stored := some abstraction }
    ({ r.1 with stored := some orig }, r.2)
  else if strict then (g, some .valueError)
  else
    let r := body g
    ({ r.1 with stored := some orig }, r.2)

/-! ## Names -/

/-- A named object (base.py:39-117). `source = none` is `UNINITIALIZED`; the name is `none` before the first `set_name`. -/
structure Named where
  name : Option String := none
  source : Option String := none
  aliases : List String := []
  deriving DecidableEq

/-- `set_name(name, aliases)` (base.py:97-117). -/
def Named.setName (o : Named) (name : String) (aliases : List String) : Named :=
  { name := some name
    source := o.source.or (o.name.or (some name))
    aliases := aliases ++ [name] }

/-- `append_alias(alias)` (base.py:79-85). -/
def Named.appendAlias (o : Named) (alias : String) : Named := { o with aliases := o.aliases ++ [alias] }

/-- `__init__(name, aliases, source_name)` (base.py:50-56). -/
def Named.create (name : String) (aliases : List String) (source : Option String) : Named :=
  ({ source := source } : Named).setName name aliases

/-- `source_name` (base.py:67-78). -/
def Named.sourceName (o : Named) : Option String := o.source.or o.name

/-- Operations on names. -/
inductive NameOp
  | setName (name : String) (aliases : List String)
  | appendAlias (alias : String)

/-- Carry out operations. -/
def Named.run : Named → List NameOp → Named
  | o, [] => o
  | o, .setName n as :: ops => (o.setName n as).run ops
  | o, .appendAlias a :: ops => (o.appendAlias a).run ops

end Ocgis.Scopes
