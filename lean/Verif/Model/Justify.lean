import Verif.Py
/-!
# Breaking a text into rows

Models `justify_row` (util/justify.py:1-30).  Texts are lists of characters.  The endless loop `while True` is given a number of turns; with too few
there is no result, and the loop of the code ends exactly if there is a result for some number.
-/
namespace Ocgis.Justify

/-- What `str.strip` takes away. -/
def isBlank (c : Char) : Bool := c.isWhitespace

/-- `row.strip()`. -/
def strip (t : List Char) : List Char := (((t.dropWhile isBlank).reverse).dropWhile isBlank).reverse

/-- `text.split(' ')`. -/
def split : List Char → List (List Char)
  | [] => [[]]
  | c :: cs =>
    if c = ' ' then [] :: split cs
    else
      match split cs with
      | [] => [[c]]
      | w :: ws => (c :: w) :: ws

/-- `' '.join(words)`. -/
def join : List (List Char) → List Char
  | [] => []
  | [w] => w
  | w :: v :: ws => w ++ ' ' :: join (v :: ws)

/-- The inner loop (util/justify.py:14-20): the words of the row, the words left, and whether they ended. -/
def fill (edge : Int) : List (List Char) → List (List Char) → List (List Char) × List (List Char) × Bool
  | row, [] => (row, [], decide (((join row).length : Int) ≤ edge))
  | row, w :: ws => if ((join row).length : Int) ≤ edge then fill edge (row ++ [w]) ws else (row, w :: ws, false)

/-- The outer loop (util/justify.py:11-28).  The last word of a row that is too long goes back.  A row without words only goes back with an edge
below zero, for which there are no words. -/
def rowsOf (edge : Int) : Nat → List (List Char) → Option (List (List Char))
  | 0, _ => none
  | n + 1, words =>
    let r := fill edge [] words
    if r.2.2 then some [join r.1]
    else
      let row := if ((join r.1).length : Int) ≠ edge then r.1.dropLast else r.1
      (rowsOf edge n (words.drop row.length)).map (join row :: ·)

/-- `justify_row(row, indent, right_edge)` (util/justify.py:1-30), with a number of turns. -/
def justify (turns : Nat) (text : List Char) (indent right : Nat) : Option (List (List Char)) :=
  let edge : Int := (right : Int) - (indent + 1)
  let words := split (strip text)
  let rows :=
    if words.length = 1 then some words
    else if words.any (fun w => decide ((w.length : Int) > (right : Int) - indent)) then some [text]
    else rowsOf edge turns words
  rows.map fun rs => rs.map (List.replicate indent ' ' ++ ·)

end Ocgis.Justify
