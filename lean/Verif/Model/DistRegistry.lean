import Verif.Py
/-!
# What a distribution knows of dimensions and variables

Models the dimensions, variables and groups that `OcgDist` keeps for each rank (vmachine/mpi.py:142-292, 356-373).  A group is known by the names
on the way to it; the root has none.  The lengths of dimensions stand for all else they have; how they are distributed is in `Model/Dist.lean`.
-/
namespace Ocgis.DistRegistry

/-- A dimension: its name, the name it has in its source, its length and whether it is empty on the rank. -/
structure Dim where
  name : String
  source : String
  size : Nat
  empty : Bool
  deriving DecidableEq, Repr

/-- The dictionaries of a group. -/
structure Group where
  dims : List (String × Dim)
  vars : List (String × List String)
  deriving DecidableEq, Repr

/-- The groups of every rank. -/
structure State where
  ranks : List Nat
  groups : Nat → List String → Option Group

/-- `OcgDist(size, ranks)` (vmachine/mpi.py:142-154, 572-573): the root group of every rank. -/
def create (ranks : List Nat) : State :=
  { ranks := ranks, groups := fun r p => if r ∈ ranks ∧ p = [] then some { dims := [], vars := [] } else none }

/-- The value of a key. -/
def get? {β : Type} (k : String) (l : List (String × β)) : Option β := (l.find? fun e => e.1 == k).map (·.2)

/-- Setting a key. -/
def setKey {β : Type} (k : String) (b : β) : List (String × β) → List (String × β)
  | [] => [(k, b)]
  | (k', b') :: l => if k' = k then (k, b) :: l else (k', b') :: setKey k b l

/-- Setting a group of a rank. -/
def State.put (s : State) (r : Nat) (p : List String) (g : Group) : State :=
  { s with groups := fun r' p' => if r' = r ∧ p' = p then some g else s.groups r' p' }

/-- `_create_or_get_group_` (vmachine/mpi.py:356-373): every group on the way that is missing is made. -/
def ensure (s : State) (r : Nat) (p : List String) : State :=
  { s with groups := fun r' p' =>
      match s.groups r' p' with
      | some g => some g
      | none => if r' = r ∧ p' <+: p then some { dims := [], vars := [] } else none }

/-- The group at the end of the way. -/
def groupAt (s : State) (r : Nat) (p : List String) : Group := (s.groups r p).getD { dims := [], vars := [] }

/-- The loop over ranks of `add_dimension` (vmachine/mpi.py:162-172): looked up by name, kept by the name in the source. -/
def addDimTo (d : Dim) (p : List String) (force : Bool) : List Nat → State → State × Option PyErr
  | [], s => (s, none)
  | r :: rs, s =>
    let s := ensure s r p
    let g := groupAt s r p
    if ! force && (get? d.name g.dims).isSome then (s, some .valueError)
    else addDimTo d p force rs (s.put r p { g with dims := setKey d.source d g.dims })

/-- `add_dimension` (vmachine/mpi.py:156-172). -/
def addDim (d : Dim) (p : List String) (force : Bool) (s : State) : State × Option PyErr := addDimTo d p force s.ranks s

/-- The loop over ranks of `add_variable` (vmachine/mpi.py:206-212). -/
def addVarTo (name : String) (dims : List String) (p : List String) (force : Bool) : List Nat → State → State × Option PyErr
  | [], s => (s, none)
  | r :: rs, s =>
    let s := ensure s r p
    let g := groupAt s r p
    if ! force && (get? name g.vars).isSome then (s, some .valueError)
    else addVarTo name dims p force rs (s.put r p { g with vars := setKey name dims g.vars })

/-- `add_variable` (vmachine/mpi.py:178-212). -/
def addVar (name : String) (dims : List String) (p : List String) (force : Bool) (s : State) : State × Option PyErr :=
  addVarTo name dims p force s.ranks s

/-- `get_dimension` (vmachine/mpi.py:245-252): the distribution after it, and what it gives. -/
def getDim (name : String) (p : List String) (r : Nat) (s : State) : State × Res Dim :=
  if r ∈ s.ranks then
    let s := ensure s r p
    (s, match get? name (groupAt s r p).dims with
      | some d => .ok d
      | none => .error .dimensionNotFound)
  else (s, .error .keyError)

/-- `get_variable` for a variable, looked up by the name in its source, or for a name (vmachine/mpi.py:270-282). -/
def getVar (source : String) (p : List String) (r : Nat) (s : State) : State × Res (List String) :=
  if r ∈ s.ranks then
    let s := ensure s r p
    (s, match get? source (groupAt s r p).vars with
      | some d => .ok d
      | none => .error .keyError)
  else (s, .error .keyError)

/-- `create_dimension` where all ranks are there (vmachine/mpi.py:218-231): added, and looked up by its name. -/
def createDim (d : Dim) (p : List String) (r : Nat) (s : State) : State × Res Dim :=
  match addDim d p false s with
  | (s, some e) => (s, .error e)
  | (s, none) => getDim d.name p r s

/-- `get_empty_ranks` (vmachine/mpi.py:258-268) without inversion: ranks are counted from zero. -/
def emptyRanks (size : Nat) (p : List String) (s : State) : Res (List Nat) :=
  if (List.range size).all (· ∈ s.ranks) then
    .ok ((List.range size).filter fun r => (groupAt (ensure s r p) r p).dims.any fun e => e.2.empty)
  else .error .keyError

end Ocgis.DistRegistry
