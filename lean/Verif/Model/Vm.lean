import Verif.Py
/-!
# The virtual machine and the serial communicator

`OcgVM` (vmachine/core.py:11-244) on one process, and `DummyMPIComm` / `DummyRequest` (vmachine/mpi.py:31-128).
-/
namespace Ocgis.Vm

/-- A communicator as one process sees it: the null communicator, or a group given by the world ranks of its members. -/
inductive Comm where
  | null
  | group (members : List Nat)
  deriving DecidableEq, Repr

/-- The attributes of `OcgVM` (core.py:19-32): the process's world rank, whether the communicator is the serial
stand-in, the base communicator, the dictionary of sub-communicators, the current name. -/
structure Vm where
  me : Nat
  dummy : Bool
  base : Comm
  sub : String → Option Comm
  current : Option String

/-- Dictionary assignment. -/
def setSub (f : String → Option Comm) (k : String) (v : Option Comm) : String → Option Comm :=
  fun x => if x = k then v else f x

/-- `vm.comm` (core.py:40-46, 178-182). -/
def Vm.comm (vm : Vm) : Res Comm :=
  match vm.current with
  | none => .ok vm.base
  | some name =>
    match vm.sub name with
    | some c => .ok c
    | none => .error .subcommNotFound

/-- `comm.Create(comm.Get_group().Incl(ranks))` for `ranks` not empty (core.py:114-117): ranks must exist in the
communicator and be distinct, and the null communicator has no group (MPI errors); processes outside the new group get
the null communicator. -/
def mpiCreate (me : Nat) (c : Comm) (ranks : List Nat) : Res Comm :=
  match c with
  | .null => .error .runtimeError
  | .group members =>
    if ranks.all (· < members.length) && decide ranks.Nodup then
      let g := ranks.filterMap (members[·]?)
      .ok (if me ∈ g then .group g else .null)
    else .error .runtimeError

/-- `create_subcomm(name, ranks, is_current, clobber)` (core.py:108-129).  A created communicator that is not stored
because the name is taken leaks; that is not represented. -/
def createSubcomm (name : String) (ranks : List Nat) (isCurrent clobber : Bool) (vm : Vm) : Res Vm := do
  let sub ←
    if vm.dummy then .ok (setSub vm.sub name (some vm.base))
    else if ranks = [] then .ok (setSub vm.sub name (some .null))
    else do
      let c ← vm.comm
      let new ← mpiCreate vm.me c ranks
      if (vm.sub name).isSome && !clobber then .error .subcommAlreadyCreated
      else .ok (setSub vm.sub name (some new))
  .ok { vm with sub, current := if isCurrent then some name else vm.current }

/-- `free_subcomm(name=name)` (core.py:136-143). -/
def freeSubcomm (name : String) (vm : Vm) : Res Vm :=
  if vm.dummy then .ok vm
  else
    match vm.sub name with
    | none => .error .subcommNotFound
    | some _ => .ok { vm with sub := setSub vm.sub name none }

/-- `set_comm(name)` (core.py:198-199). -/
def setComm (name : Option String) (vm : Vm) : Vm := { vm with current := name }

/-- `barrier()` (core.py:96-97): on the null communicator an MPI error. -/
def barrier (vm : Vm) : Res Unit := do
  match ← vm.comm with
  | .null => .error .runtimeError
  | .group _ => .ok ()

/-- Python statements using the virtual machine. -/
inductive Prog where
  | skip
  | raise (e : PyErr)
  | seq (a b : Prog)
  /-- `try: a except Exception: pass` -/
  | attempt (a : Prog)
  /-- `with vm.scoped(name, ranks): body` -/
  | scope (name : String) (ranks : List Nat) (body : Prog)
  /-- `with vm.scoped_by_name(name): body` -/
  | byName (name : Option String) (body : Prog)
  /-- `with vm.scoped_barrier(first, last): body` -/
  | scopedBarrier (first last : Bool) (body : Prog)
  | create (name : String) (ranks : List Nat) (isCurrent clobber : Bool)
  | free (name : String)
  | set (name : Option String)
  deriving DecidableEq, Repr

/-- Running a statement: the exception raised, if any, and the virtual machine afterwards.  `vm_scope`
(core.py:226-234): create outside the `try`; in the `finally`, free and then restore, so that a failing
free skips the restoration and replaces the exception.  `vm_scoped_by_name` (237-244), `vm_scoped_barrier` (215-223). -/
def run : Prog → Vm → Option PyErr × Vm
  | .skip, vm => (none, vm)
  | .raise e, vm => (some e, vm)
  | .seq a b, vm =>
    match run a vm with
    | (none, vm') => run b vm'
    | (some e, vm') => (some e, vm')
  | .attempt a, vm => (none, (run a vm).2)
  | .scope name ranks body, vm =>
    match createSubcomm name ranks true false vm with
    | .error e => (some e, vm)
    | .ok vm1 =>
      match freeSubcomm name (run body vm1).2 with
      | .error e => (some e, (run body vm1).2)
      | .ok vm3 => ((run body vm1).1, setComm vm.current vm3)
  | .byName name body, vm =>
    ((run body (setComm name vm)).1, setComm vm.current (run body (setComm name vm)).2)
  | .scopedBarrier first last body, vm =>
    match if first then barrier vm else .ok () with
    | .error e => (some e, vm)
    | .ok _ =>
      match if last then barrier (run body vm).2 else .ok () with
      | .error e => (some e, (run body vm).2)
      | .ok _ => run body vm
  | .create name ranks isCurrent clobber, vm =>
    match createSubcomm name ranks isCurrent clobber vm with
    | .error e => (some e, vm)
    | .ok vm' => (none, vm')
  | .free name, vm =>
    match freeSubcomm name vm with
    | .error e => (some e, vm)
    | .ok vm' => (none, vm')
  | .set name, vm => (none, setComm name vm)

/-! ## The serial communicator -/

/-- `_send_recv` (mpi.py:34): per rank and tag at most one payload. -/
abbrev Box := Nat → Int → Option Int

/-- The operations: `Isend`, `Test` on a receive request, `wait` on a receive request. -/
inductive Op where
  | send (payload : Int) (dest : Nat) (tag : Int)
  | test (source : Nat) (tag : Int)
  | wait (source : Nat) (tag : Int)
  deriving DecidableEq, Repr

/-- What an operation shows: nothing, the answer of `Test`, the payload received, or that `wait` spins forever. -/
inductive Out where
  | sent
  | tested (b : Bool)
  | received (payload : Int)
  | spins
  deriving DecidableEq, Repr

/-- One operation (mpi.py:71-97, 109-128).  `Isend` overwrites the entry for its destination and tag; `Test` is the
callback in mode `test`; `wait` loops until `Test` holds (nothing else runs in serial) and then pops the entry. -/
def step (b : Box) : Op → Out × Box
  | .send p d t => (.sent, fun d' t' => if d' = d ∧ t' = t then some p else b d' t')
  | .test s t => (.tested (b s t).isSome, b)
  | .wait s t =>
    match b s t with
    | some p => (.received p, fun s' t' => if s' = s ∧ t' = t then none else b s' t')
    | none => (.spins, b)

/-- The box after a history. -/
def after (history : List Op) : Box := history.foldl (fun b op => (step b op).2) (fun _ _ => none)

/-- Collective operations of the serial communicator (mpi.py:42-69): `bcast`, `gather`, `scatter`, `reduce`. -/
def dummyBcast {α : Type} (x : α) : α := x
def dummyGather {α : Type} (x : α) : List α := [x]
def dummyScatter {α : Type} (xs : List α) : Res α := match xs with | x :: _ => .ok x | [] => .error .indexError
def dummyReduce {α : Type} (x : α) : α := x

end Ocgis.Vm
