import Verif.Model.DictSlice
import Verif.Model.Scopes

/-! Slices of a field by the standard names of its dimensions: `Field.get_field_slice` (collection/field.py:561-604), with
`get_name_mapping` (collection/field.py:1096-1118), the temporary renaming of `Model/Scopes.lean`, the slices of `Model/DictSlice.lean` and
`revert_renamed_dimensions_on_variables` (base.py:316-328).  One process; dimensions are not distributed; values are loaded. -/

namespace Ocgis.FieldSlice
open Ocgis Ocgis.DictSlice Ocgis.Scopes

/-- What is in the dimension map for one key: the name of the variable and the names of the dimensions.  That asking for a key creates an
empty entry is left out: nothing tells it from none. -/
structure DmEntry where
  var : Option String := none
  dims : List String := []
  deriving DecidableEq, Repr

/-- A field: its dimension objects, the dictionary of its dimensions, its variables, the tagged data variables and its dimension map. -/
structure SField (α : Type) where
  objs : Nat → Dim
  dims : List (String × Nat)
  vars : Assoc (DVar α)
  data : List String := []
  dmap : Assoc DmEntry := []

/-- `get_variable` and `get_dimension` (driver/dimension_map.py:176-191, 283-294). -/
def entryOf (dmap : Assoc DmEntry) (k : String) : DmEntry := (find dmap k).getD {}

/-- The keys that are looked at (collection/field.py:1098-1103). -/
def sliceKeys (dmap : Assoc DmEntry) : List String :=
  ["realization", "time", "level", "y", "x"] ++ (if (entryOf dmap "geom").dims.length = 1 then ["geom"] else [])

/-- The names listed for a key: those of the dimensions, or that of the variable (collection/field.py:1106-1116). -/
def listed (e : DmEntry) : Option (List String) := e.var.map fun v => if e.dims.isEmpty then [v] else e.dims

/-- `get_name_mapping(dimension_map)` (collection/field.py:1096-1118). -/
def nameMapping (dmap : Assoc DmEntry) : NameMapping :=
  (sliceKeys dmap).filterMap fun k => (listed (entryOf dmap k)).map fun ds => (k, ds)

/-- The dimension map afterwards: the name of the variable is appended to the list itself (collection/field.py:1108-1116). -/
def mapAfter (dmap : Assoc DmEntry) : Assoc DmEntry :=
  dmap.map fun ke => if (sliceKeys dmap).contains ke.1 then (ke.1, { ke.2 with dims := (listed ke.2).getD ke.2.dims }) else ke

/-- The names of the dimension objects. -/
def namesOf {α : Type} (f : SField α) : Heap := fun d => (f.objs d).name

/-- The collection whose dimensions are renamed. -/
def scopeOf {α : Type} (f : SField α) : VC := ⟨namesOf f, f.dims, f.vars.map fun kv => (kv.1, kv.2.names)⟩

/-- `d[key] = value`. -/
def assign {β : Type} (d : Assoc β) (key : String) (x : β) : Assoc β :=
  if d.any (fun kv => kv.1 == key) then put d key x else d ++ [(key, x)]

/-- `original_names` (base.py:289-292): for one entry of the mapping. -/
def refsEntry (k : String) (olds : List String) : List (String × Nat) → Heap × Assoc String → Heap × Assoc String
  | [], hr => hr
  | (ki, vi) :: rest, hr =>
    if olds.contains ki then refsEntry k olds rest (hr.1.put vi k, assign hr.2 (hr.1 vi) k) else refsEntry k olds rest hr

/-- `original_names` (base.py:286-294). -/
def backrefs (dims : List (String × Nat)) : NameMapping → Heap × Assoc String → Heap × Assoc String
  | [], hr => hr
  | (k, olds) :: rest, hr => backrefs dims rest (refsEntry k olds dims hr)

/-- The field while its dimensions are renamed. -/
def renamedColl {α : Type} (f : SField α) (c : VC) : Coll α :=
  ⟨c.dims.map fun kd => (kd.1, { f.objs kd.2 with name := c.heap kd.2 }),
    f.vars.zipWith (fun kv kn => (kv.1, { kv.2 with names := kn.2 })) c.vars⟩

/-- A dimension of the returned field: an object shared with the sliced field, or a new one. -/
structure RDim where
  shared : Option Nat
  dim : Dim
  deriving DecidableEq, Repr

/-- The dimensions of the returned field after the scope (base.py:308-311): shared objects have their names back. -/
def leftDims {α : Type} (f : SField α) (c : VC) (new : String → Bool) (dims : Assoc Dim) : Assoc RDim :=
  dims.zipWith (fun (kd : String × Dim) (ki : String × Nat) =>
    if new kd.1 then (kd.1, ⟨none, kd.2⟩) else (kd.1, ⟨some ki.2, { kd.2 with name := restoreNames c.heap f.dims ki.2 }⟩)) c.dims

/-- One turn of the inner loop (base.py:321-326).  An object shared with the sliced field is renamed there, too. -/
def revertRef (k : String) (s : Assoc RDim × Heap) (ref : String × String) : Assoc RDim × Heap :=
  if k = ref.2 ∧ ref.1 ≠ ref.2 then
    match find s.1 k with
    | none => s
    | some r => (assign s.1 ref.1 ⟨r.shared, { r.dim with name := ref.1 }⟩, match r.shared with | some i => s.2.put i ref.1 | none => s.2)
  else s

/-- The loops (base.py:320-326). -/
def revertDims (refs : Assoc String) : List String → Assoc RDim × Heap → Assoc RDim × Heap
  | [], s => s
  | k :: ks, s => revertDims refs ks (refs.foldl (revertRef k) s)

/-- `to_swap` (base.py:319-328). -/
def swapped (refs : Assoc String) (k : String) : Bool := refs.any fun ref => k == ref.2 && ref.1 != ref.2

/-- `revert_renamed_dimensions_on_variables(mapping_meta, vc)` (base.py:316-328): the dimensions, and the names of the objects. -/
def revert (refs : Assoc String) (dims : Assoc RDim) (h : Heap) : Assoc RDim × Heap :=
  match revertDims refs (dims.map (·.1)) (dims, h) with
  | (ds, h) => (ds.filter fun kd => !(((dims.map (·.1)).filter (swapped refs)).contains kd.1), h)

/-- What happens: the returned field, the sliced field afterwards and the dictionary afterwards. -/
structure Outcome (α : Type) where
  result : Res (Coll α)
  field : SField α
  dslice : Assoc RawIndex

/-- The local slice of one dimension (variable/base.py:1262-1283); all truth values false make the variable empty, which is not
modelled. -/
def localIndex (len : Int) (i : Index) : Res RawIndex :=
  match i with
  | .slice s =>
    if s = PySlice.all then .ok (.slice PySlice.all)
    else
      match Mpi.globalToLocal s.start s.stop 0 len with
      | .error e => .error e
      | .ok none => .error .typeError
      | .ok (some (a, b)) => .ok (.slice ⟨some a, some b⟩)
  | .bools bs => if (whereTrue bs 0).isEmpty then .error .notImplemented else .ok (.ints (whereTrue bs 0))
  | .ints is => .ok (.ints is)

/-- `Dimension.get_distributed_slice(slc)` of a dimension that is not distributed (variable/dimension.py:307-316). -/
def dimSlice (d : Dim) (i : Index) : Res Dim :=
  if d.isEmpty then .error .emptyObject
  else if i = .slice PySlice.all then .ok d
  else
    match i with
    | .slice s => d.getitem (.slice s)
    | .ints is => d.getitem (.ints is)
    | .bools bs => d.getitem (.bools bs)

/-- The slice chosen for a dimension of the data variable (collection/field.py:586-594). -/
def chosen (d : Assoc RawIndex) (strict : Bool) (n : String) : Res RawIndex :=
  match find d n with
  | some s => .ok s
  | none => if strict then .error .keyError else .ok .none

/-- One dimension of `get_distributed_slice` (variable/base.py:1249-1254, 1261-1283): the new dimension and the local slice. -/
def distDim (dims : Assoc Dim) (d : Assoc RawIndex) (strict : Bool) (n : String) : Res (Dim × RawIndex) :=
  match chosen d strict n with
  | .error e => .error e
  | .ok raw =>
    match formatSlice raw with
    | .error e => .error e
    | .ok i =>
      match find dims n with
      | none => .error .keyError
      | some D =>
        match dimSlice D i with
        | .error e => .error e
        | .ok D' =>
          match localIndex D.len i with
          | .error e => .error e
          | .ok l => .ok (D', l)

/-- The distributed slice (collection/field.py:582-599, variable/base.py:1239-1288): only the dimensions of the first data variable are
sliced, and are given the new dimensions.  Errors of new dimensions come before errors of local slices in the code; here the first
dimension with either counts. -/
def distColl {α : Type} (c : Coll α) (data : List String) (d : Assoc RawIndex) (strict : Bool) : Res (List String × Coll α) :=
  match data with
  | [] => .error .indexError
  | n :: _ =>
    match find c.vars n with
    | none => .error .keyError
    | some v =>
      match v.names.mapM (distDim c.dims d strict) with
      | .error e => .error e
      | .ok ps =>
        match sliceColl c (v.names.zip (ps.map (·.2))) with
        | .error e => .error e
        | .ok r => .ok (v.names, { r with dims := (v.names.zip (ps.map (·.1))).foldl (fun ds nd => put ds nd.1 nd.2) r.dims })

/-- The slice itself: the names of new dimensions and the sliced collection (collection/field.py:582-601). -/
def sliceInside {α : Type} (f : SField α) (c : VC) (d : Assoc RawIndex) (strict distributed : Bool) : Res (List String × Coll α) :=
  if distributed then distColl (renamedColl f c) f.data d strict
  else
    match sliceColl (renamedColl f c) d with
    | .error e => .error e
    | .ok r => .ok (d.map (·.1), r)

/-- The field when the slice fails: names are restored. -/
def failed {α : Type} (f : SField α) (h : Heap) : SField α :=
  { f with objs := fun i => { f.objs i with name := restoreNames h f.dims i }, dmap := mapAfter f.dmap }

/-- `field.get_field_slice(dslice, strict, distributed)` (collection/field.py:561-604). -/
def fieldSlice {α : Type} (f : SField α) (d : Assoc RawIndex) (strict distributed : Bool) : Outcome α :=
  match enterRenamed (nameMapping f.dmap) (scopeOf f) with
  | (h, .error e) => ⟨.error e, failed f h, d⟩
  | (_, .ok c) =>
    match sliceInside f c (if strict then d else d.filter fun ks => c.dims.any fun kd => kd.1 == ks.1) strict distributed with
    | .error e => ⟨.error e, failed f c.heap, if strict then d else d.filter fun ks => c.dims.any fun kd => kd.1 == ks.1⟩
    | .ok (new, r) =>
      match revert (backrefs f.dims (nameMapping f.dmap) (namesOf f, [])).2 (leftDims f c new.contains r.dims) (restoreNames c.heap f.dims) with
      | (dims, h) =>
        ⟨.ok ⟨dims.map fun kd => (kd.1, kd.2.dim), r.vars.zipWith (fun kv kw => (kv.1, { kv.2 with names := kw.2.names })) f.vars⟩,
          { f with objs := fun i => { f.objs i with name := h i }, dmap := mapAfter f.dmap },
          if strict then d else d.filter fun ks => c.dims.any fun kd => kd.1 == ks.1⟩

end Ocgis.FieldSlice
