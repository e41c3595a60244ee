import Verif.Py

/-!
# Python string operations

The string methods the modelled code calls, on lists of characters.  Blanks, letters and digits are the ASCII
ones: for other characters Python follows the Unicode tables, which are not modelled.
-/

namespace Ocgis.Text
open Ocgis

/-- A Python string. -/
abbrev Text := List Char

/-- The ASCII characters that `str.strip()` and `int()` take as blanks: 9 to 13 and 28 to 32. -/
def isBlank (c : Char) : Bool := (9 ≤ c.toNat && c.toNat ≤ 13) || (28 ≤ c.toNat && c.toNat ≤ 32)

/-- `s.lstrip()`. -/
def lstrip (s : Text) : Text := s.dropWhile isBlank

/-- `s.strip()`. -/
def strip (s : Text) : Text := (lstrip (lstrip s).reverse).reverse

/-- `s.lower()`. -/
def lower (s : Text) : Text := s.map Char.toLower

/-- `s.split(sep)` for a separator of one character. -/
def split (sep : Char) : Text → List Text
  | [] => [[]]
  | c :: cs =>
    if c = sep then [] :: split sep cs
    else
      match split sep cs with
      | [] => [[c]]
      | w :: ws => (c :: w) :: ws

/-- The value of a digit. -/
def digit (c : Char) : Nat := c.toNat - '0'.toNat

/-- The digits of an integer literal, with single underscores between digits.  `prev` tells whether a digit comes
just before. -/
def digits (prev : Bool) (acc : Nat) : Text → Option Nat
  | [] => if prev then some acc else none
  | c :: cs =>
    if c = '_' then (if prev then digits false acc cs else none)
    else if c.isDigit then digits true (10 * acc + digit c) cs
    else none

/-- The part of an integer literal after the blanks: an optional sign and the digits. -/
def signed : Text → Option Int
  | '-' :: cs => (digits false 0 cs).map fun n : Nat => - (n : Int)
  | '+' :: cs => (digits false 0 cs).map fun n : Nat => (n : Int)
  | cs => (digits false 0 cs).map fun n : Nat => (n : Int)

/-- `int(s)`; `none` stands for the `ValueError`. -/
def toInt (s : Text) : Option Int := signed (strip s)

/-- src/ocgis/util/helpers.py:69-87, `format_bool` of a string. -/
def formatBool (s : Text) : Res Bool :=
  match toInt s with
  | some i => .ok (i != 0)
  | none =>
    if lower s = "t".toList ∨ lower s = "true".toList then .ok true
    else if lower s = "f".toList ∨ lower s = "false".toList then .ok false
    else .error .valueError

end Ocgis.Text
