import Verif.Model.ScatterGather
import Verif.Model.SourceRead
/-!
# Redistributing variables by source index, and scattering a collection over the processes

`redistribute_by_src_idx` (vmachine/mpi.py:635-723) and `variable_collection_scatter` (vmachine/mpi.py:726-753).

The state of all ranks is a list, one entry for each rank; what a collective operation moves between them is computed from the
whole list, as the deterministic result of the collective (its scheduling is the subject of `Model/Comm.lean`).
-/
namespace Ocgis.Redistribute
open Ocgis Ocgis.Mpi
open Ocgis.DictSlice (positions)
open Ocgis.SourceRead (readIndex)

/-- A variable of a collection on one rank.  With the redistributed dimension its values are listed by their hyperslabs along it,
without it by their elements.  Masks belong to the values.  `file` is what the source holds, for a variable with a source. -/
structure Item (α : Type) where
  name : String
  dims : List String
  file : Option (List α) := none
  value : Option (List α) := none
  /-- `_is_empty` (variable/base.py:591-606). -/
  empty : Option Bool := none
  /-- `_has_initialized_value` (variable/base.py:1625). -/
  loaded : Bool := false
  deriving DecidableEq, Repr

/-- The collection on one rank: its dimensions and its variables. -/
structure Held (α : Type) where
  dims : List Dim
  items : List (Item α)
  deriving DecidableEq, Repr

/-- `variable.dimensions`, from the dimensions of the collection. -/
def Held.dimsOf {α : Type} (h : Held α) (v : Item α) : List Dim := v.dims.filterMap fun n => h.dims.find? (·.name = n)

/-- `variable.is_empty` (variable/base.py:591-606). -/
def Held.isEmpty {α : Type} (h : Held α) (v : Item α) : Bool :=
  match v.empty with
  | some b => b
  | none => (h.dimsOf v).any (·.dist) && (h.dimsOf v).any (·.isEmpty)

/-- The value allocated for a variable that has none (variable/base.py:746-759): fill values, shown as `none`. -/
def Held.allocated {α : Type} (h : Held α) (dn : String) (v : Item α) : Option (List (Option α)) :=
  if h.isEmpty v || v.dims.isEmpty then none
  else if v.dims.contains dn then
    match h.dims.find? (·.name = dn) with
    | none => none
    | some d => some (List.replicate d.len.toNat none)
  else some (List.replicate ((h.dimsOf v).map (·.len.toNat)).prod none)

/-- What is read from the source of a variable (driver/nc.py:659-685): along the redistributed dimension the elements its source index names. -/
def Held.fromFile {α : Type} (h : Held α) (dn : String) (v : Item α) (file : List α) : Res (List α) :=
  if v.dims.contains dn then
    match h.dims.find? (·.name = dn) with
    | none => .error .keyError
    | some d =>
      match formatSlice (readIndex d) with
      | .error e => .error e
      | .ok i =>
        match positions file.length i with
        | .error _ => .error .typeError
        | .ok pos => .ok (pos.filterMap fun k => file[k]?)
  else .ok file

/-- `variable.get_value()` (variable/base.py:1305-1312, 1689-1698); `none` is `None`. -/
def Held.read {α : Type} (h : Held α) (dn : String) (v : Item α) : Res (Option (List (Option α))) :=
  match v.value with
  | some xs => .ok (some (xs.map some))
  | none =>
    match v.file with
    | none => .ok (h.allocated dn v)
    | some file =>
      if h.isEmpty v || v.loaded then .ok (h.allocated dn v)
      else
        match h.fromFile dn v file with
        | .error e => .error e
        | .ok xs => .ok (some (xs.map some))

/-- The source indices of a gathered dimension as an array (vmachine/mpi.py:681-685); `None` has no `shape`. -/
def fancyIndex (d : Dim) : Res (List Int) :=
  match d.srcIdx with
  | some (.fancy xs) => .ok xs
  | some (.bounds a b) => .ok (intRange a b)
  | none => .error .attributeError

/-- All source indices on the root (vmachine/mpi.py:674-688).  `hgather` needs a first element for its type. -/
def globalIndex (passed : List (Option Dim)) : Res (List Int) :=
  match (passed.filterMap id).mapM fancyIndex with
  | .error e => .error e
  | .ok [] => .error .indexError
  | .ok es => hgather 0 es

/-- The new dimension on every rank (vmachine/mpi.py:694-696): `OcgDist()` is over all processes that were started. -/
def newDims (started : Nat) (dn : String) (n : Nat) : Res (List Dim) :=
  let d : Dim := ⟨dn, some n, some n, true, false, none, none, none⟩
  match (OcgDist.mk started false (List.replicate started [[d]])).updateDimensionBounds 2 with
  | .error e => .error e
  | .ok o => .ok (o.mapping.filterMap fun groups => groups.head?.bind List.head?)

/-- `_reset_variable_(target)` (vmachine/mpi.py:667-671). -/
def Item.reset {α : Type} (v : Item α) : Item α := { v with empty := none, value := none, loaded := false }

/-- `VariableCollection.convert_to_empty()` (variable/base.py:1901-1906, 925-928), which `convert_to_empty` of a variable calls
(line 930): all variables of the collection become empty; its dimensions stay. -/
def Held.convertToEmpty {α : Type} (h : Held α) : Held α :=
  { h with items := h.items.map fun v => { v with value := none, empty := some true } }

/-- `parent.dimensions[dimname] = new_dim`. -/
def setDim (dims : List Dim) (d : Dim) : List Dim :=
  if dims.any (·.name = d.name) then dims.map fun x => if x.name = d.name then d else x else dims ++ [d]

/-- Lines 713-715: emptiness is left to the dimensions. -/
def Held.clearEmpty {α : Type} (h : Held α) : Held α := { h with items := h.items.map fun v => { v with empty := none } }

/-- One rank after the scatter of the source indices (vmachine/mpi.py:701-723). -/
def finish {α : Type} (dn target : String) (newDim : Dim) (share : Option (Var Int)) (h : Held α) : Res (Held α) :=
  match share with
  | none =>
    let h := h.convertToEmpty.clearEmpty
    .ok (if h.items.any (·.dims.contains dn) then h.convertToEmpty else h)
  | some idx =>
    match newDim.setSrcIdx (some (.fancy idx.values)) with
    | .error e => .error e
    | .ok d =>
      let h : Held α := { dims := setDim h.dims d, items := h.items.map fun v => if v.name = target then v.reset else v }
      let h := h.clearEmpty
      .ok { h with items := h.items.map fun v => if v.dims.contains dn then v.reset else v }

/-- The ranks one after another. -/
def finishAll {α : Type} (dn target : String) : List Dim → List (Option (Var Int)) → List (Held α) → Res (List (Held α))
  | d :: ds, s :: ss, h :: hs =>
    match finish dn target d s h with
    | .error e => .error e
    | .ok h' =>
      match finishAll dn target ds ss hs with
      | .error e => .error e
      | .ok hs' => .ok (h' :: hs')
  | _, _, _ => .ok []

/-- Is the variable live on the rank (vmachine/mpi.py:662)? -/
def live {α : Type} (target : String) (h : Held α) : Bool := (h.items.filter (·.name = target)).any fun v => !h.isEmpty v

/-- `redistribute_by_src_idx(variable, dimname, dimension)` on all ranks (vmachine/mpi.py:635-723): `target` names the variable,
`passed` are the dimensions given on the ranks, `started` is the number of processes that were started (`MPI_SIZE`), which differs
from the number of ranks when the communicator is a part of them.  A scatter of another number of parts than ranks is refused. -/
def redistribute {α : Type} (started : Nat) (dn target : String) (passed : List (Option Dim)) (ranks : List (Held α)) :
    Res (List (Held α)) :=
  if ranks.length = 1 then .ok ranks
  else if !ranks.any (live target) then .error .valueError
  else
    match globalIndex passed with
    | .error e => .error e
    | .ok idx =>
      match newDims started dn idx.length with
      | .error e => .error e
      | .ok dests =>
        match scatter ⟨⟨dn, some idx.length, some idx.length, false, false, none, none, none⟩, idx⟩ dests with
        | .error e => .error e
        | .ok shares => if shares.length ≠ ranks.length then .error .valueError else finishAll dn target dests shares ranks

/-! ## Scattering a collection -/

/-- A collection on the root: its variables, each with the names of its dimensions and its values (listed by their hyperslabs
along the distributed dimension if it has it, by their elements otherwise), its dimensions and its groups. -/
inductive Coll (α : Type) where
  | mk (name : String) (dims : List Dim) (vars : List (String × List String × List α)) (children : List (Coll α))

/-- The variables of a collection. -/
def Coll.vars {α : Type} : Coll α → List (String × List String × List α)
  | .mk _ _ vs _ => vs

/-- The dimensions of a collection. -/
def Coll.dims {α : Type} : Coll α → List Dim
  | .mk _ ds _ _ => ds

/-- The groups of a collection. -/
def Coll.children {α : Type} : Coll α → List (Coll α)
  | .mk _ _ _ cs => cs

/-- A distributed variable: one of its dimensions is distributed. -/
def Coll.varDist {α : Type} (c : Coll α) (v : String × List String × List α) : Bool :=
  c.dims.any fun d => d.dist && v.2.1.contains d.name

/-- What one rank gets of a collection (vmachine/mpi.py:899-913, variable/base.py:1770-1792): with nothing for the rank, every variable without
values; else every variable, sliced along the dimension of the distribution if it has it, in a copy of the collection that keeps
its groups. -/
def Coll.part {α : Type} (c : Coll α) (dest : Dim) : List (String × Option (List α)) :=
  c.vars.map fun v =>
    (v.1, if dest.isEmpty then none
      else if v.2.1.contains dest.name then
        some ((PySlice.mk (some dest.boundsLocal.1) (some dest.boundsLocal.2)).get v.2.2)
      else some v.2.2)

/-- `variable_scatter` of the first variable with its collection (vmachine/mpi.py:737-738, 828-925), to the ranks with the given
destination dimensions.  Slicing a collection without dimensions is refused. -/
def Coll.scatterFirst {α : Type} (c : Coll α) (dests : List Dim) : Res (List (List (String × Option (List α)))) :=
  match c.vars with
  | [] => .error .attributeError
  | _ :: _ =>
    if dests.length ≤ 1 then .ok (dests.map fun _ => c.vars.map fun v => (v.1, some v.2.2))
    else if c.dims.isEmpty && dests.any (!·.isEmpty) then .error .dimensionsRequired
    else .ok (dests.map c.part)

mutual
/-- `variable_collection_scatter(variable_collection, dest_dist)` (vmachine/mpi.py:726-753): what every rank gets. -/
def scatterColl {α : Type} (dests : List Dim) : Coll α → Res (List (List (String × Option (List α))))
  | .mk n ds vs cs =>
    let c := Coll.mk n ds vs cs
    if c.vars.any c.varDist then .error .valueError
    else
      match c.scatterFirst dests with
      | .error e => .error e
      | .ok parts =>
        match scatterChildren dests cs with
        | .error e => .error e
        | .ok _ => .ok parts

/-- The loop over the groups (vmachine/mpi.py:749-751): the scattered group is a collection, of which the variable named 0 is
asked. -/
def scatterChildren {α : Type} (dests : List Dim) : List (Coll α) → Res Unit
  | [] => .ok ()
  | c :: _ =>
    match scatterColl dests c with
    | .error e => .error e
    | .ok _ => .error .keyError
end

end Ocgis.Redistribute
