import Verif.Model.FileScope
/-!
# What the properties of open files talk about
-/
namespace Ocgis.Spec
open Ocgis.FileScope

/-- How often the file of a number is opened and closed in a part of the log. -/
def timesOpened (id : Nat) (l : List Ev) : Nat :=
  l.countP fun e => match e with
    | .opened i _ _ _ => i == id
    | _ => false
def timesClosed (id : Nat) (l : List Ev) : Nat :=
  l.countP fun e => match e with
    | .closed i => i == id
    | _ => false

/-- No scope of the program asks for a group of a file. -/
def NoGroups : Prog → Prop
  | .scope s body k =>
    (∀ p ∈ s.kw, p.1 ≠ "group_indexing") ∧
    (∀ rd, s.driver = some rd → ∀ kw, rd.kw = some kw → ∀ p ∈ kw, p.1 ≠ "group_indexing") ∧ NoGroups body ∧ NoGroups k
  | .use k => NoGroups k
  | .attempt body k => NoGroups body ∧ NoGroups k
  | _ => True

/-- The open file objects the program was given, by its caller or with a request dataset, are open. -/
def GivenOpen (opens : List Nat) : Prog → Prop
  | .scope s body k =>
    (∀ h, s.given = some (.handle h) → h.id ∈ opens) ∧
    (∀ rd, s.driver = some rd → ∀ h, rd.opened = some h → h.id ∈ opens) ∧ GivenOpen opens body ∧ GivenOpen opens k
  | .use k => GivenOpen opens k
  | .attempt body k => GivenOpen opens body ∧ GivenOpen opens k
  | _ => True

/-- Every scope has something to scope: an open object or a location, its own or that of the request dataset. -/
def HasSource : Prog → Prop
  | .scope s body k =>
    ((∃ h, s.given = some (.handle h)) ∨ (∃ u, s.given = some (.uris u)) ∨
      (s.given = none ∧ ∃ rd, s.driver = some rd ∧ (rd.opened ≠ none ∨ rd.uri ≠ none))) ∧ HasSource body ∧ HasSource k
  | .use k => HasSource k
  | .attempt body k => HasSource body ∧ HasSource k
  | _ => True

/-- The exception that leaves a program when files cause none. -/
def raisedBy : Prog → Option PyErr
  | .done => none
  | .fail e => some e
  | .use k => raisedBy k
  | .scope _ body k => match raisedBy body with
    | some e => some e
    | none => raisedBy k
  | .attempt _ k => raisedBy k

end Ocgis.Spec
