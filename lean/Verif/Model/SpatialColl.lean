import Verif.Py

/-!
# Spatial collections

`src/ocgis/collection/spatial.py:98-167` with `add_child` of `src/ocgis/variable/base.py:1812-1824`.
-/

namespace Ocgis.SpatialColl
open Ocgis

/-- The fields a container holds by name, in order (`container.children`).  A field is a number. -/
abbrev Children := List (String × Nat)

/-- `self.children`: the containers by unique geometry identifier, in order.  The key `none` is Python's `None`, the
container without geometry. -/
abbrev Coll := List (Option Int × Children)

/-- `ordered_dict[key] = value`: an existing key keeps its place. -/
def put {κ ν : Type} [DecidableEq κ] : List (κ × ν) → κ → ν → List (κ × ν)
  | [], k, v => [(k, v)]
  | e :: es, k, v => if e.1 = k then (k, v) :: es else e :: put es k v

/-- `ordered_dict.get(key)`. -/
def get? {κ ν : Type} [DecidableEq κ] (d : List (κ × ν)) (k : κ) : Option ν :=
  (d.find? fun e => e.1 = k).map (·.2)

/-- variable/base.py:1812-1824, `add_child`. -/
def addChild (cs : Children) (name : String) (field : Nat) (force : Bool) : Res Children :=
  if (get? cs name).isSome ∧ force = false then .error .valueError else .ok (put cs name field)

/-- One call of `add_field(field, container, force)`: `key` is the container's geometry identifier, `none` for a
container that is `None` or has no geometry; `held` are fields the container object already has. -/
structure Add where
  key : Option Int
  held : Children := []
  name : String
  field : Nat
  force : Bool := false

/-- spatial.py:110-121, the container used: the one in the collection, otherwise the one passed (a new empty one for
`None`), which is put into the collection at once. -/
def container (st : Coll) (a : Add) : Children :=
  match get? st a.key with
  | some cs => cs
  | none => if a.key = none then [] else a.held

/-- spatial.py:98-122, `add_field`: the result and the collection afterwards. -/
def addField (st : Coll) (a : Add) : Res Unit × Coll :=
  match addChild (container st a) a.name a.field a.force with
  | .error e => (.error e, put st a.key (container st a))
  | .ok cs => (.ok (), put st a.key cs)

/-- A history of additions to a new collection; the ones that raise are caught. -/
def run (as : List Add) : Coll := as.foldl (fun st a => (addField st a).2) []

/-- spatial.py:158-167, `iter_fields(yield_container=True)`, with the container's key and the field's name. -/
def iterFields (st : Coll) : List (Option Int × String × Nat) :=
  st.flatMap fun c => c.2.map fun f => (c.1, f.1, f.2)

/-- What `get_element` may return when no variable is asked for. -/
inductive Elem where
  | field (f : Nat)
  | container (key : Option Int)
  deriving DecidableEq

/-- spatial.py:135-149, the container of `get_element`: `None` stands for the first one. -/
def pickContainer (st : Coll) : Option Int → Res (Option Int × Children)
  | none =>
    match st with
    | [] => .error .unboundLocal
    | c :: _ => .ok c
  | some k =>
    match get? st (some k) with
    | some cs => .ok (some k, cs)
    | none => .error .keyError

/-- spatial.py:124-156, `get_element(field_name, container_ugid)`.  The identifier is given as a number. -/
def getElement (st : Coll) (fieldName : Option String) (ugid : Option Int) : Res Elem :=
  match pickContainer st ugid with
  | .error e => .error e
  | .ok c =>
    match fieldName with
    | none =>
      match c.2 with
      | [] => .ok (.container c.1)
      | f :: _ => .ok (.field f.2)
    | some n =>
      match get? c.2 n with
      | some f => .ok (.field f)
      | none => .error .keyError

end Ocgis.SpatialColl
