import Verif.Py

/-!
# Dimension maps

`src/ocgis/driver/dimension_map.py` with the keys of `src/ocgis/constants.py:224-275`.  A Python dictionary
indexed by entry key or attribute name is a partial function; nothing modelled here depends on the order of
its keys.
-/

namespace Ocgis.DimMap
open Ocgis

/-- Attribute dictionaries (values as strings). -/
abbrev Attrs := String → Option String

/-- The empty dictionary. -/
def noAttrs : Attrs := fun _ => none

/-- `a.update(b)`. -/
def updateAttrs (a b : Attrs) : Attrs := fun k => (b k).or (a k)

/-- constants.py:255-275, the entry keys with a coordinate variable (the allowed keys that are not special). -/
def coordKeys : List String :=
  ["attribute_host", "element_node_connectivity", "geom", "level", "realization", "time", "x", "y"]

/-- constants.py:274, `get_special_entry_keys`. -/
def specialKeys : List String := ["grid_abstraction", "spatial_mask", "crs", "driver", "topology", "is_isomorphic"]

/-- One entry of the storage.  The outer `Option` tells whether the element is present in the entry's
dictionary; `var` (the element `variable`) and `bounds` may be present and `None`.  A section is an opaque string. -/
structure Entry where
  var : Option (Option String) := none
  bounds : Option (Option String) := none
  dimension : Option (List String) := none
  attrs : Option Attrs := none
  section_ : Option String := none

/-- `self._storage` (dimension_map.py:24) without groups: entries for the coordinate keys, `crs` and
`spatial_mask`, and the scalar properties.  Of the topology only its presence is kept here. -/
structure Store where
  entries : String → Option Entry := fun _ => none
  driver : Option String := none
  abstraction : Option String := none
  isomorphic : Option Bool := none
  topology : Bool := false

/-- Replace one entry. -/
def Store.put (s : Store) (k : String) (e : Entry) : Store :=
  { s with entries := fun j => if j = k then some e else s.entries j }

/-- `self._storage.pop(k)`. -/
def Store.drop (s : Store) (k : String) : Store :=
  { s with entries := fun j => if j = k then none else s.entries j }

/-- dimension_map.py:598-602, `_get_entry_` on an allowed key: the entry, created empty when absent. -/
def Store.entry (s : Store) (k : String) : Entry := (s.entries k).getD {}

/-- dimension_map.py:591-602: keys other than entry keys are rejected, and `crs` has its own getter. -/
def checkKey (k : String) : Res Unit :=
  if k = "crs" then .error .dimensionMapError
  else if k ∈ coordKeys ∨ k ∈ specialKeys then .ok ()
  else .error .dimensionMapError

/-- dimension_map.py:283-301, `get_variable` without a parent: returns the element and stores the default
when it was absent.  (Asking the special keys other than `spatial_mask` for elements is not modelled.) -/
def getVariable (s : Store) (k : String) : Res (Option String) × Store :=
  match checkKey k with
  | .error e => (.error e, s)
  | .ok () =>
    let e := s.entry k
    (.ok (e.var.getD none), s.put k { e with var := some (e.var.getD none) })

/-- dimension_map.py:155-162, `get_bounds`. -/
def getBounds (s : Store) (k : String) : Res (Option String) × Store :=
  match checkKey k with
  | .error e => (.error e, s)
  | .ok () =>
    let e := s.entry k
    (.ok (e.bounds.getD none), s.put k { e with bounds := some (e.bounds.getD none) })

/-- dimension_map.py:176-191, `get_dimension` without a dimension dictionary. -/
def getDimension (s : Store) (k : String) : Res (List String) × Store :=
  match checkKey k with
  | .error e => (.error e, s)
  | .ok () =>
    let e := s.entry k
    (.ok (e.dimension.getD []), s.put k { e with dimension := some (e.dimension.getD []) })

/-- dimension_map.py:132-139, `get_attrs`. -/
def getAttrs (s : Store) (k : String) : Res Attrs × Store :=
  match checkKey k with
  | .error e => (.error e, s)
  | .ok () =>
    let e := s.entry k
    (.ok (e.attrs.getD noAttrs), s.put k { e with attrs := some (e.attrs.getD noAttrs) })

/-- dimension_map.py:164-174, `get_crs` without a parent. -/
def getCrs (s : Store) : Option String × Store :=
  let e := s.entry "crs"
  (e.var.getD none, s.put "crs" { e with var := some (e.var.getD none) })

/-- dimension_map.py:240-248, `get_spatial_mask`. -/
def getMask (s : Store) : Option String × Store :=
  let e := s.entry "spatial_mask"
  (e.var.getD none, s.put "spatial_mask" { e with var := some (e.var.getD none) })

/-- A variable object handed to `set_variable`: what the function reads off it. -/
structure VarObj where
  bounds : Option String
  dims : List String
  attrs : Attrs

/-- The `variable` argument: a name, with the object when one was passed. -/
structure VarArg where
  name : String
  obj : Option VarObj := none

/-- constants.py:547-571, `DIMENSION_MAP_TEMPLATE[entry_key]['attrs']`, empty when there is none. -/
def defaultAttrs (k : String) : Attrs := fun a =>
  if k = "realization" ∧ a = "axis" then some "R"
  else if k = "time" ∧ a = "axis" then some "T"
  else if k = "geom" ∧ a = "axis" then some "ocgis_geom"
  else if k = "spatial_mask" ∧ a = "ocgis_role" then some "spatial_mask"
  else if k = "spatial_mask" ∧ a = "description" then some "values matching fill value are spatially masked"
  else if k = "element_node_connectivity" ∧ a = "standard_name" then some "face_node_connectivity"
  else if k = "attribute_host" ∧ a = "cf_role" then some "mesh_topology"
  else if k = "attribute_host" ∧ a = "standard_name" then some "mesh_topology"
  else none

/-- dimension_map.py:511-524, the representative dimension taken from a variable object. -/
def objDimension (o : VarObj) (pos : Option Nat) (dimless : Bool) : Res (Option (List String)) :=
  match o.dims with
  | [] => .ok none
  | [d] => .ok (if dimless then none else some [d])
  | ds => match pos with
    | none => if dimless then .ok none else .error .dimensionMapError
    | some p => if dimless then .ok none else match ds[p]? with
      | some d => .ok (some [d])
      | none => .error .indexError

/-- dimension_map.py:507-527, the dimension to store. -/
def chosenDimension (v : VarArg) (dimension : Option (List String)) (pos : Option Nat) (dimless : Bool) :
    Res (Option (List String)) :=
  match dimension, v.obj with
  | some d, _ => .ok (some d)
  | none, none => .ok none
  | none, some o => objDimension o pos dimless

/-- dimension_map.py:508-509, the bounds to store. -/
def chosenBounds (v : VarArg) (bounds : Option String) : Option String :=
  match bounds, v.obj with
  | some b, _ => some b
  | none, none => none
  | none, some o => o.bounds

/-- dimension_map.py:539-555, the attributes to store: what the map already has wins over the variable's,
which win over the given (or default) ones. -/
def chosenAttrs (s : Store) (k : String) (v : VarArg) (attrs : Option Attrs) : Attrs :=
  updateAttrs (updateAttrs (attrs.getD (defaultAttrs k)) ((v.obj.map VarObj.attrs).getD noAttrs))
    ((s.entry k).attrs.getD noAttrs)

/-- The arguments of `set_variable` besides key and variable. -/
structure SetArgs where
  dimension : Option (List String) := none
  bounds : Option String := none
  attrs : Option Attrs := none
  pos : Option Nat := none
  dimless : Bool := false
  section_ : Option String := none

/-- dimension_map.py:556-559, storing. -/
def storeEntry (s : Store) (k : String) (v : VarArg) (a : SetArgs) (dim : Option (List String)) : Store :=
  s.put k { var := some (some v.name), bounds := some (chosenBounds v a.bounds), dimension := some (dim.getD []),
            attrs := some (chosenAttrs s k v a.attrs), section_ := a.section_.or (s.entry k).section_ }

/-- dimension_map.py:471-559, `set_variable`. -/
def setVariable (s : Store) (k : String) (v : Option VarArg) (a : SetArgs) : Res Unit × Store :=
  if k ∈ specialKeys then (.error .dimensionMapError, s)
  else if a.section_.isSome ∧ a.pos = none ∧ a.dimension = none then (.error .dimensionMapError, s)
  else if k ∉ coordKeys then (.error .dimensionMapError, s)
  else match v with
    | none => (.ok (), s.drop k)
    | some v => match chosenDimension v a.dimension a.pos a.dimless with
      | .error e => (.error e, s.put k (s.entry k))
      | .ok dim => (.ok (), storeEntry s k v a dim)

/-- dimension_map.py:389-400, `set_bounds`: `entry['variable']` raises `KeyError` when the element is absent,
and `None` is refused. -/
def setBounds (s : Store) (k : String) (b : String) : Res Unit × Store :=
  if k ∉ coordKeys ∧ k ∉ specialKeys then (.error .dimensionMapError, s)
  else match (s.entry k).var with
    | none => (.error .keyError, s.put k (s.entry k))
    | some none => (.error .dimensionMapError, s.put k (s.entry k))
    | some (some _) => (.ok (), s.put k { s.entry k with bounds := some (some b) })

/-- dimension_map.py:402-410, `set_crs`. -/
def setCrs (s : Store) (v : Option String) : Store := s.put "crs" { s.entry "crs" with var := some v }

/-- dimension_map.py:412-416, `set_driver` (the registry lookup is a predicate on keys). -/
def setDriver (known : String → Bool) (s : Store) (d : String) : Res Unit × Store :=
  if known d then (.ok (), { s with driver := some d }) else (.error .valueError, s)

/-- dimension_map.py:193-204, `get_driver` with `DEFAULT_DRIVER`. -/
def getDriver (s : Store) : String := s.driver.getD "netcdf-cf"

/-- dimension_map.py:441-469, `set_spatial_mask` with the variable's own and the given attributes. -/
def setMask (s : Store) (v : Option String) (vattrs attrs : Attrs) : Store :=
  s.put "spatial_mask" { s.entry "spatial_mask" with
    var := some v, attrs := some (updateAttrs (updateAttrs (defaultAttrs "spatial_mask") vattrs) attrs) }

/-- The calls a user makes on a map (without groups and topologies). -/
inductive Op where
  | getVariable (k : String)
  | getBounds (k : String)
  | getDimension (k : String)
  | getAttrs (k : String)
  | getCrs
  | getMask
  | setVariable (k : String) (v : Option VarArg) (a : SetArgs)
  | setBounds (k : String) (b : String)
  | setCrs (v : String)
  | setDriver (d : String)
  | setMask (v : String) (vattrs attrs : Attrs)
  | setAbstraction (a : String)
  | setIsomorphic (b : Bool)

/-- The state after a call, also when it raises. -/
def step (known : String → Bool) (s : Store) : Op → Store
  | .getVariable k => (getVariable s k).2
  | .getBounds k => (getBounds s k).2
  | .getDimension k => (getDimension s k).2
  | .getAttrs k => (getAttrs s k).2
  | .getCrs => (getCrs s).2
  | .getMask => (getMask s).2
  | .setVariable k v a => (setVariable s k v a).2
  | .setBounds k b => (setBounds s k b).2
  | .setCrs v => setCrs s (some v)
  | .setDriver d => (setDriver known s d).2
  | .setMask v va a => setMask s (some v) va a
  | .setAbstraction a => { s with abstraction := some a }
  | .setIsomorphic b => { s with isomorphic := some b }

/-- A history of calls. -/
def run (known : String → Bool) (s : Store) (ops : List Op) : Store := ops.foldl (step known) s

/-! ## Groups and dictionaries -/

/-- A dimension map with its groups.  `as_dict` (dimension_map.py:43-57) deep-copies the storage and replaces
every group map by its own dictionary, so the dictionary has exactly this content too and the same type is
used for both. -/
inductive DMap where
  | mk (own : Store) (groups : List (String × DMap))

def DMap.own : DMap → Store
  | .mk s _ => s

def DMap.groups : DMap → List (String × DMap)
  | .mk _ g => g

/-- dimension_map.py:76-86, one item of the dictionary.  `v.pop('variable')` must succeed; the mask is set
without its attributes and only if it has other elements. -/
def importEntry (d : Store) (k : String) (e : Entry) : Res Store :=
  match e.var with
  | none => .error .dimensionMapError
  | some v =>
    if k = "crs" then .ok (setCrs d v)
    else if k = "spatial_mask" then
      if e.bounds.isNone ∧ e.dimension.isNone ∧ e.attrs.isNone ∧ e.section_.isNone then .ok d
      else .ok (setMask d v noAttrs noAttrs)
    else match setVariable d k (v.map fun n => { name := n })
        { dimension := e.dimension, bounds := e.bounds.getD none, attrs := e.attrs, section_ := e.section_ } with
      | (.ok (), d') => .ok d'
      | (.error err, _) => .error err

/-- One key of the dictionary, absent or present. -/
def importKey (src : Store) (d : Store) (k : String) : Res Store :=
  match src.entries k with
  | none => .ok d
  | some e => importEntry d k e

/-- dimension_map.py:70-86, the items other than groups.  The other properties are not dictionaries: a string
or boolean has no `pop` (`AttributeError`), and the dictionary of topologies has no `'variable'`.  The items
are taken in a fixed order; they are independent, so the order only decides which exception comes first. -/
def importStore (known : String → Bool) (src : Store) : Res Store :=
  if src.topology then .error .dimensionMapError
  else if src.abstraction.isSome ∨ src.isomorphic.isSome then .error .attributeError
  else match src.driver with
    | some d => if known d then
        (coordKeys ++ ["crs", "spatial_mask"]).foldlM (importKey src) { driver := some d }
      else .error .valueError
    | none => (coordKeys ++ ["crs", "spatial_mask"]).foldlM (importKey src) {}

mutual
/-- dimension_map.py:59-90, `from_dict`. -/
def fromDict (known : String → Bool) : DMap → Res DMap
  | .mk s gs => match importStore known s with
    | .error e => .error e
    | .ok s' => match fromGroups known gs with
      | .error e => .error e
      | .ok gs' => .ok (.mk s' gs')
/-- dimension_map.py:87-89, the groups. -/
def fromGroups (known : String → Bool) : List (String × DMap) → Res (List (String × DMap))
  | [] => .ok []
  | (n, m) :: rest => match fromDict known m with
    | .error e => .error e
    | .ok m' => match fromGroups known rest with
      | .error e => .error e
      | .ok rest' => .ok ((n, m') :: rest')
end

/-- The group of that name. -/
def findGroup (gs : List (String × DMap)) (n : String) : Option DMap := (gs.find? fun p => p.1 == n).map Prod.snd

/-- Replace the group of that name. -/
def replaceGroup (gs : List (String × DMap)) (n : String) (m : DMap) : List (String × DMap) :=
  gs.map fun p => if p.1 == n then (p.1, m) else p

/-- dimension_map.py:617-648 without creation, `get_group` (216-228): the path without its leading `None`. -/
def getGroup (m : DMap) : List String → Res DMap
  | [] => .ok m
  | n :: ns => match findGroup m.groups n with
    | none => .error .dimensionMapError
    | some c => getGroup c ns

/-- dimension_map.py:421-429 and 617-648 with creation, `set_group`.  An existing group is returned, not
replaced.  A missing intermediate group is created as a plain dictionary, which has no `_storage`. -/
def setGroup (m : DMap) (path : List String) (new : DMap) : Res DMap :=
  match path with
  | [] => .ok m
  | [n] => match findGroup m.groups n with
    | some _ => .ok m
    | none => .ok (.mk m.own (m.groups ++ [(n, new)]))
  | n :: ns => match findGroup m.groups n with
    | none => .error .attributeError
    | some c => match setGroup c ns new with
      | .error e => .error e
      | .ok c' => .ok (.mk m.own (replaceGroup m.groups n c'))

/-- Group metadata: a name and nested groups. -/
inductive Meta where
  | mk (dmap : Store) (groups : List (String × Meta))

mutual
/-- dimension_map.py:92-114, `from_metadata` below the root: every nested group is set on the *root* map under
its own name (`curr` is handed down unchanged). -/
def addMetadata (root : DMap) (name : String) : Meta → Res DMap
  | .mk s gs => match setGroup root [name] (.mk s []) with
    | .error e => .error e
    | .ok root' => addGroups root' gs
/-- dimension_map.py:110-112, the loop over nested groups. -/
def addGroups (root : DMap) : List (String × Meta) → Res DMap
  | [] => .ok root
  | (n, m) :: rest => match addMetadata root n m with
    | .error e => .error e
    | .ok root' => addGroups root' rest
end

/-- dimension_map.py:92-114, `from_metadata`. -/
def fromMetadata : Meta → Res DMap
  | .mk s gs => addGroups (.mk s []) gs

/-! ## Topologies -/

/-- `self._storage['topology']`: absent, or a dictionary from topology names to child maps, where the stored
value may be `None`. -/
abbrev Topologies (α : Type _) := Option (String → Option (Option α))

/-- dimension_map.py:267-268, the dictionary of topologies, created on request. -/
def topoDict {α : Type _} (t : Topologies α) (create : Bool) : Topologies α :=
  match t with
  | none => if create then some (fun _ => none) else none
  | some d => some d

/-- dimension_map.py:250-281, `get_topology`; `fresh` is the new empty child map. -/
def getTopology {α : Type _} (fresh : α) (t : Topologies α) (name : String) (create : Bool) :
    Option α × Topologies α :=
  match topoDict t create with
  | none => (none, none)
  | some d =>
    let ret := (d name).getD (if create then some fresh else none)
    (ret, some fun j => if j = name then some ret else d j)

end Ocgis.DimMap
