import Verif.Model.Text
/-!
# Choosing the dataset to regrid to

Models `RegridDestination` of an operation (ops/parms/definition.py:1015-1066) with what is done to a name before it is looked up
(ops/parms/base.py:70-75, 134-145, 167-168) and which fields are regridded (ops/engine.py:362).
-/
namespace Ocgis.RegridDest
open Text

/-- A member of the datasets of an operation: a field (without a name to be looked up) or a request, and its two flags. -/
structure Dataset where
  isField : Bool
  name : Text
  source : Bool
  dest : Bool
  deriving DecidableEq, Repr

/-- What the argument is: nothing, a name, or a field, grid or request of its own. -/
inductive Given
  | nothing
  | text (s : Text)
  | object
  deriving DecidableEq, Repr

/-- The destination: none, the dataset at a position, or the object of the argument. -/
inductive Dest
  | none
  | member (i : Nat)
  | object
  deriving DecidableEq, Repr

/-- The loop over the datasets for a name (definition.py:1039-1041), from position `i` on: there is no `break`. A field has no `field_name`. -/
def find (s : Text) : Nat → List Dataset → Option Nat → Res (Option Nat)
  | _, [], found => .ok found
  | i, d :: ds, found =>
    if d.isField then .error .attributeError
    else find s (i + 1) ds (if d.name = s then some i else found)

/-- The first dataset with the flag (definition.py:1051-1054). -/
def flagged : Nat → List Dataset → Option Nat
  | _, [] => Option.none
  | i, d :: ds => if d.dest then some i else flagged (i + 1) ds

/-- `_parse_` up to the check of sources (definition.py:1036-1054); the text is already formatted. -/
def choose (g : Given) (ds : List Dataset) : Res Dest :=
  match g with
  | .text s =>
    match find s 0 ds Option.none with
    | .error e => .error e
    | .ok Option.none => .error .definitionValidation
    | .ok (some i) => .ok (.member i)
  | .nothing =>
    if 1 < (ds.filter (·.dest)).length then .error .definitionValidation
    else
      match flagged 0 ds with
      | some i => .ok (.member i)
      | Option.none => .ok .none
  | .object => .ok .object

/-- Text arguments are made lower case and stripped, and `none` is nothing (ops/parms/base.py:70-75, 134-145). -/
def format : Given → Given
  | .text s =>
    let m := strip (lower s)
    if m = "none".toList then .nothing else .text m
  | g => g

/-- Setting the parameter (ops/parms/base.py:62-93, definition.py:1034-1066): a destination needs a dataset that is a source. -/
def destination (g : Given) (ds : List Dataset) : Res Dest :=
  match choose (format g) ds with
  | .error e => .error e
  | .ok .none => .ok .none
  | .ok d => if (ds.filter (·.source)).length < 1 then .error .definitionValidation else .ok d

/-- Whether the dataset at a position is regridded (ops/engine.py:362). -/
def regridded (d : Dest) (x : Dataset) : Bool := d != .none && x.source

end Ocgis.RegridDest
