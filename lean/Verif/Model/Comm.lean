import Verif.Py
/-!
# Message-passing processes

The execution model for the collective functions: every rank runs a program made of sends, receives and
collective operations; the scheduler picks, at every step, any rank whose next operation can proceed.

* `send` is buffered (`comm.send`, `comm.Send` and `comm.Isend` of the small messages the library sends), and
  messages between two ranks with one tag arrive in the order they were sent (MPI's non-overtaking rule);
* `recv` blocks until a message from the given source with the given tag is there (`comm.recv`, `comm.Recv`,
  `Irecv(...).wait()`);
* `coll` is a collective operation: it proceeds when every rank has reached one, and hands every rank the list of all
  contributions.  Barrier, gather, bcast and reduce are all of this form (the unused part is ignored).

Messages are lists of integers: every payload in the modelled protocols is an integer or an integer array.
-/
namespace Ocgis.Comm

abbrev Msg := List Int

/-- The program a rank still has to run. -/
inductive Proc (R : Type) where
  | ret (r : R)
  | raise (e : PyErr)
  | send (dest tag : Nat) (v : Msg) (k : Proc R)
  | recv (src tag : Nat) (k : Msg → Proc R)
  | coll (v : Msg) (k : List Msg → Proc R)

/-- Messages in flight, by source, destination and tag. -/
abbrev Chan := Nat → Nat → Nat → List Msg

/-- Append a message. -/
def Chan.push (c : Chan) (src dst tag : Nat) (v : Msg) : Chan :=
  fun s d t => if s = src ∧ d = dst ∧ t = tag then c s d t ++ [v] else c s d t

/-- Remove the oldest message. -/
def Chan.pop (c : Chan) (src dst tag : Nat) : Chan :=
  fun s d t => if s = src ∧ d = dst ∧ t = tag then (c s d t).tail else c s d t

/-- No message in flight. -/
def Chan.empty : Chan := fun _ _ _ => []

/-- The ranks' remaining programs and the messages in flight. -/
structure Sys (R : Type) where
  procs : List (Proc R)
  chan : Chan

/-- One operation of rank `i` on its own. -/
inductive Local {R : Type} (i : Nat) : Proc R × Chan → Proc R × Chan → Prop
  | send (d t v k c) : Local i (.send d t v k, c) (k, c.push i d t v)
  | recv (s t k c v rest) : c s i t = v :: rest → Local i (.recv s t k, c) (k v, c.pop s i t)

/-- What a rank contributes to a collective operation it has reached. -/
def Proc.offer {R : Type} : Proc R → Option Msg
  | .coll v _ => some v
  | _ => none

/-- How a rank continues after a collective operation. -/
def Proc.resume {R : Type} (all : List Msg) : Proc R → Proc R
  | .coll _ k => k all
  | p => p

/-- One step of the whole system. -/
inductive Step {R : Type} : Sys R → Sys R → Prop
  | loc (S : Sys R) (i : Nat) (p p' : Proc R) (c' : Chan) : S.procs[i]? = some p → Local i (p, S.chan) (p', c') →
      Step S ⟨S.procs.set i p', c'⟩
  | coll (S : Sys R) (vs : List Msg) : S.procs ≠ [] → S.procs.map Proc.offer = vs.map some →
      Step S ⟨S.procs.map (Proc.resume vs), S.chan⟩

/-- `n` steps. -/
inductive Steps {R : Type} : Nat → Sys R → Sys R → Prop
  | refl (S) : Steps 0 S S
  | cons {n S T U} : Step S T → Steps n T U → Steps (n + 1) S U

/-- Start: every rank runs its program, nothing in flight. -/
def start {R : Type} (n : Nat) (prog : Nat → Proc R) : Sys R := ⟨(List.range n).map prog, Chan.empty⟩

/-- Every execution from `S` ends in `F`: no execution can take more than `n` steps, every execution
can be continued to `F`, and nothing can happen in `F`. -/
def AlwaysReaches {R : Type} (S F : Sys R) : Prop :=
  (∀ T, ¬ Step F T) ∧ ∃ n, ∀ m T, Steps m S T → m ≤ n ∧ Steps (n - m) T F

/-- On every schedule, all `n` ranks return, rank `i` returning `result i`, and no message is left over. -/
def AlwaysReturns {R : Type} (n : Nat) (prog : Nat → Proc R) (result : Nat → R) : Prop :=
  AlwaysReaches (start n prog) ⟨(List.range n).map (fun i => Proc.ret (result i)), Chan.empty⟩

end Ocgis.Comm
