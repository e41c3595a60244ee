import Verif.Model.Text

/-!
# Comparing units

`src/ocgis/util/units.py`.  The units library is a parameter: `U` is its type of units objects.
-/

namespace Ocgis.Units
open Ocgis Ocgis.Text

/-- `itertools.permutations(xs, 2)`: every element with every element at another position, in order. -/
def pairsOf {U : Type} (xs : List U) : List (U × U) :=
  (List.range xs.length).flatMap fun i =>
    ((List.range xs.length).filter fun j => j != i).filterMap fun j =>
      match xs[i]?, xs[j]? with
      | some x, some y => some (x, y)
      | _, _ => none

/-- units.py:25-29: the loop that stops at the first pair that differs. -/
def loopEqual {U : Type} (ne : U → U → Bool) : List (U × U) → Bool
  | [] => true
  | p :: ps => if ne p.1 p.2 then false else loopEqual ne ps

/-- units.py:20-29, `get_are_units_equal`.  `ne` is the library's `!=`. -/
def areEqual {U : Type} (ne : U → U → Bool) (xs : List U) : Res Bool :=
  if xs.length < 2 then .error .valueError else .ok (loopEqual ne (pairsOf xs))

/-- units.py:12-16: the method `is_convertible`, and `equivalent` for a library without it. -/
def convertibleTo {U : Type} (isConvertible equivalent : U → U → Res Bool) (p : U × U) : Res Bool :=
  match isConvertible p.1 p.2 with
  | .error .attributeError => equivalent p.1 p.2
  | r => r

/-- units.py:6-17, `get_are_units_equivalent`. -/
def areEquivalent {U : Type} (isConvertible equivalent : U → U → Res Bool) (xs : List U) : Res Bool :=
  if xs.length < 2 then .error .valueError
  else
    match (pairsOf xs).mapM (convertibleTo isConvertible equivalent) with
    | .error e => .error e
    | .ok bs => .ok (bs.all id)

/-- A units library: how it reads a text (`ValueError` for an unknown unit) and its `!=`. -/
structure Library where
  U : Type
  parse : Text → Res U
  ne : U → U → Bool

/-- units.py:32-57, `get_are_units_equal_by_string_or_cfunits`, with 73-94: `none` stands for a machine with no
units library.  The objects are made before the `try`. -/
def areEqualByString (lib : Option Library) (source target : Text) (tryCfunits : Bool) : Res Bool :=
  if tryCfunits then
    match lib with
    | none => .error .importError
    | some l => do
      let s ← l.parse source
      let t ← l.parse target
      areEqual l.ne [s, t]
  else .ok (lower source == lower target)

end Ocgis.Units
