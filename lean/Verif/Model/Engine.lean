import Verif.Model.Vm

/-!
# The operations engine

`OperationsEngine` (src/ocgis/ops/engine.py): the communicator around an iteration, the loop over datasets and selection
geometries, and the ranks that take part in it.
-/

namespace Ocgis.Engine
open Ocgis Ocgis.Vm

/-! ## Communicators -/

/-- `SubcommName` (constants.py): the names the engine and the converters use. -/
def subcommNames : List String := ["FIELD_GET", "FIELD_SUBSET", "UGEOM_WRITE", "NONSPATIAL_SUBSET", "SPATIAL_AVERAGE"]

/-- engine.py:63-67: one name freed, `SubcommNotFoundError` ignored. -/
def freeQuietly (vm : Vm) (name : String) : Vm :=
  match freeSubcomm name vm with
  | .ok vm' => vm'
  | .error _ => vm

/-- The `finally` of `__iter__` (engine.py:61-68); `original` is `vm.current_comm_name` when the engine was made (38). -/
def close (original : Option String) (vm : Vm) : Vm := setComm original (subcommNames.foldl freeQuietly vm)

/-- A whole iteration of an engine (engine.py:53-72) around arbitrary statements. -/
def iterate (original : Option String) (body : Prog) (vm : Vm) : Option PyErr × Vm :=
  ((run body vm).1, close original (run body vm).2)

/-! ## Datasets and geometries on one process -/

/-- Coordinate systems: rotated poles, the geographic ones (`env.DEFAULT_COORDSYS`, `Spherical`, `WGS84`) and projections. -/
inductive Crs where
  | rotated (pole : Nat)
  | geographic
  | projected (n : Nat)
  deriving DecidableEq, Repr

/-- A field: coordinate system, the source cells it holds (none: `is_empty`), whether it may be regridded
(`regrid_source`), and what was done to it. -/
structure Field where
  crs : Crs
  cells : List Nat
  regridSource : Bool := true
  regridded : Bool := false
  aggregated : Bool := false
  calculated : Bool := false
  deriving DecidableEq, Repr

/-- The operations arguments that matter here.  `hasCalc`: calculations are present; `raw`: `calc_raw`; `baseSize`:
`request_base_size_only`. Wrapping, slices, snippets and point buffers are left out. -/
structure Ops where
  allowEmpty : Bool := false
  aggregate : Bool := false
  clip : Bool := false
  hasCalc : Bool := false
  raw : Bool := false
  regrid : Bool := false
  outputCrs : Option Crs := none
  baseSize : Bool := false

/-- A selection geometry: its identifier and the cells it selects. -/
structure Geometry where
  ugid : Nat
  covers : Nat → Bool

/-- What one step of the iteration yields: the geometry's identifier, and the field. -/
abbrev Output := Option Nat × Field

/-- The state that outlives one geometry: the field object of the dataset (`update_crs` works in place) and
`_backtransform`. -/
structure State where
  field : Field
  back : Option Crs

/-- `_get_update_rotated_pole_state_` (engine.py:413-436) and the assignment of its result (319). -/
def rotatedPole (o : Ops) (hasGeometry : Bool) (f : Field) : State :=
  match f.crs with
  | .rotated p =>
    if hasGeometry || o.aggregate || o.clip then ⟨{ f with crs := .geographic }, some (.rotated p)⟩ else ⟨f, none⟩
  | _ => ⟨f, none⟩

/-- `_get_spatially_subsetted_field_` (engine.py:474-515). -/
def subset (o : Ops) (f : Field) (g : Geometry) : Res Field :=
  if f.cells.filter g.covers = [] then
    if o.allowEmpty then .ok { f with cells := [] } else .error .extentError
  else .ok { f with cells := f.cells.filter g.covers }

/-- engine.py:336-341: all the data without a geometry. -/
def cut (o : Ops) (f : Field) : Option Geometry → Res Field
  | none => .ok f
  | some g => subset o f g

/-- The coordinate system part of `_update_aggregation_wrapping_crs_` (engine.py:648-664): back to the rotated pole unless
the output is geographic, then to the output system. -/
def outputCrs (o : Ops) (back : Option Crs) (f : Field) : Field :=
  let f1 := match back with
    | some c => if o.outputCrs = some .geographic then f else { f with crs := c }
    | none => f
  match o.outputCrs with
  | some c => { f1 with crs := c }
  | none => f1

/-- `_update_aggregation_wrapping_crs_` (engine.py:571-674). -/
def update (o : Ops) (back : Option Crs) (f : Field) : Res Field :=
  if f.cells = [] then .error .emptyObject
  else .ok (outputCrs o back { f with aggregated := f.aggregated || o.aggregate })

/-- engine.py:350-372, after the subset. -/
def refine (o : Ops) (back : Option Crs) (f : Field) : Res Field :=
  if f.cells ≠ [] ∧ o.allowEmpty = false then
    if o.baseSize then .ok f
    else
      let f1 := if o.regrid && f.regridSource then { f with regridded := true } else f
      if o.hasCalc = false ∨ o.raw = false then update o back f1 else .ok f1
  else .ok f

/-- engine.py:118-140: calculations on what the subset loop yields. -/
def calculate (o : Ops) (back : Option Crs) (f : Field) : Res Field :=
  if o.hasCalc && !o.baseSize then
    if f.cells = [] then .error .emptyObject
    else
      let f1 := { f with calculated := true }
      if o.aggregate && o.raw then update o back f1 else .ok f1
  else .ok f

/-- engine.py:338-382 and 118-140 for one geometry, the rotated pole being dealt with. -/
def select (o : Ops) (s : State) (g : Option Geometry) : Res Output :=
  match cut o s.field g with
  | .error e => .error e
  | .ok f =>
    match refine o s.back f with
    | .error e => .error e
    | .ok f1 =>
      match calculate o s.back f1 with
      | .error e => .error e
      | .ok f2 => .ok (g.map (fun g => g.ugid), f2)

/-- One pass of the loop in `_process_geometries_` (engine.py:301-382) and `_iter_collections_` (118-150): what is yielded
and the state for the next geometry. -/
def oneGeometry (o : Ops) (s : State) (g : Option Geometry) : Res Output × State :=
  (select o (rotatedPole o g.isSome s.field) g, rotatedPole o g.isSome s.field)

/-- The loop over geometries: what is yielded before the end or the first exception, the exception, the last state. -/
def geometries (o : Ops) : State → List (Option Geometry) → List Output × Option PyErr × State
  | s, [] => ([], none, s)
  | s, g :: gs =>
    match oneGeometry o s g with
    | (.error e, s1) => ([], some e, s1)
    | (.ok out, s1) =>
      match geometries o s1 gs with
      | (outs, e, s2) => (out :: outs, e, s2)

/-- A dataset after its time and level subsets (engine.py:233-246): a field, or the exception of the subset. -/
abbrev Dataset := Res Field

/-- engine.py:275-279: what the geometry loop runs over. -/
def iterator : Option (List Geometry) → List (Option Geometry)
  | none => [none]
  | some l => l.map some

/-- `_process_subsettables_` (engine.py:156-293): `EmptySubsetError` of a time or level subset gives one empty collection or
an `ExtentError`; with a slice or without selection geometries the loop has one pass without geometry. -/
def dataset (o : Ops) (gs : Option (List Geometry)) (back : Option Crs) (d : Dataset) : List Output × Option PyErr × Option Crs :=
  match d with
  | .error .emptySubset =>
    if o.allowEmpty then ([(none, ⟨.geographic, [], true, false, false, false⟩)], none, back) else ([], some .extentError, back)
  | .error e => ([], some e, back)
  | .ok f =>
    match geometries o ⟨f, back⟩ (iterator gs) with
    | (outs, e, s) => (outs, e, s.back)

/-- `_iter_collections_` (engine.py:74-150) without multivariate calculations: dataset after dataset. -/
def datasets (o : Ops) (gs : Option (List Geometry)) : Option Crs → List Dataset → List Output × Option PyErr
  | _, [] => ([], none)
  | back, d :: ds =>
    match dataset o gs back d with
    | (outs, some e, _) => (outs, some e)
    | (outs, none, back1) =>
      match datasets o gs back1 ds with
      | (rest, e) => (outs ++ rest, e)

/-- A run of the engine. -/
def collections (o : Ops) (gs : Option (List Geometry)) (ds : List Dataset) : List Output × Option PyErr :=
  datasets o gs none ds

/-! ## Datasets and geometries on several processes -/

/-- The loop over geometries on all ranks, rank `r` holding the cells `parts[r]`.  `live` are the members of the current
communicator. A rank outside it subsets nothing (engine.py:305-306: its communicator is null and its whole part is passed
on instead of a subset; what the converters make of that is left out). The others subset their part, and `create_subcomm_by_emptyable(FIELD_SUBSET, ...,
is_current=True, clobber=True)` (engine.py:346, vmachine/core.py:131-134) makes those with something left the current
communicator. The result holds, for each geometry, the cells of all ranks. -/
def parallel (parts : List (List Nat)) : List Nat → List Geometry → List (List Nat)
  | _, [] => []
  | live, g :: gs =>
    (live.map fun r => ((parts[r]?).getD []).filter g.covers).flatten ::
      parallel parts (live.filter fun r => ((parts[r]?).getD []).any g.covers) gs

end Ocgis.Engine
