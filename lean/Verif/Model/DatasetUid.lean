import Verif.Py
/-!
# Identifiers of the datasets of an operation

Models the iteration over the datasets of an operation (ops/parms/definition.py:464-498) and the file that says what the identifiers mean
(conv/base.py:294-330).  The caller's objects are known by numbers, and `Uids` gives the identifier each of them has.  ESMF fields are left out.
A multiple request dataset passes its identifier on to the first of its request datasets (driver/request/multi_request.py:55-61,96-117) and is
modelled as that one.  The driver of a request dataset has that request dataset itself (driver/request/core.py:200, driver/base.py:45-46), and a
copy has the same driver (base.py:23-25); the driver of a field is a class and has none (collection/field.py:239-246).
-/
namespace Ocgis.DatasetUid

/-- An object of the caller: a request dataset or a field, with a number that stands for the object. -/
inductive Obj
  | request (n : Nat)
  | field (n : Nat)
  deriving DecidableEq, Repr

/-- What may be given as a dataset: an object of the caller, or a dictionary with the arguments of a request dataset, of which the identifier
matters here. -/
inductive Source
  | object (o : Obj)
  | options (uid : Option Int)
  deriving DecidableEq, Repr

/-- A dataset and the names of its data variables. -/
structure Item where
  source : Source
  names : List String
  deriving DecidableEq, Repr

/-- The identifiers that the caller's objects have. -/
abbrev Uids := Obj → Option Int

/-- The identifier that a dataset comes with (ops/parms/definition.py:475-487). -/
def given (u : Uids) : Source → Option Int
  | .object o => u o
  | .options i => i

/-- `element.driver.rd.uid = uid` (ops/parms/definition.py:488-496): the identifier of the copy, and through the driver that of the caller's
request dataset. -/
def mark (u : Uids) (s : Source) (i : Int) : Uids :=
  match s with
  | .object (.request n) => fun o => if o = .request n then some i else u o
  | .object (.field _) => u
  | .options _ => u

/-- One step of the iteration at a position (ops/parms/definition.py:474-498). -/
def step (u : Uids) (pos : Nat) (s : Source) : Int × Uids :=
  match given u s with
  | some i => (i, u)
  | none => ((pos : Int), mark u s pos)

/-- `Dataset.__iter__` from a position on: the identifiers in their order, and the caller's objects after it. -/
def walk (u : Uids) : Nat → List Item → List Int × Uids
  | _, [] => ([], u)
  | pos, x :: xs =>
    let r := step u pos x.source
    let rest := walk r.2 (pos + 1) xs
    (r.1 :: rest.1, rest.2)

/-- `for element in ops.dataset` (ops/parms/definition.py:474): positions start at one. -/
def identifiers (u : Uids) (xs : List Item) : List Int × Uids := walk u 1 xs

/-- The rows of the identifier file (conv/base.py:302-330), with identifier and variable only. -/
def fileRows (u : Uids) (xs : List Item) : List (Int × String) :=
  ((identifiers u xs).1.zip xs).flatMap fun p => p.2.names.map fun n => (p.1, n)

end Ocgis.DatasetUid
