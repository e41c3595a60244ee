import Verif.Model.Justify
/-!
# What the rows of a text should be
-/
namespace Ocgis.Spec
open Justify

/-- A text without the blanks around it. -/
def Stripped (text t : List Char) : Prop :=
  (∃ a b, text = a ++ t ++ b ∧ (∀ c ∈ a, c.isWhitespace = true) ∧ ∀ c ∈ b, c.isWhitespace = true) ∧
  (∀ c, t.head? = some c → c.isWhitespace = false) ∧ ∀ c, t.getLast? = some c → c.isWhitespace = false

/-- The words of a text: without spaces, and with single spaces between them they are the text. -/
def WordsOf (t : List Char) (words : List (List Char)) : Prop := words ≠ [] ∧ (∀ w ∈ words, ' ' ∉ w) ∧ join words = t

/-- Words in rows: the rows have all words in their order, none is without words, none is wider than the width, and none has room for the first
word of the next. -/
def FilledRows (words : List (List Char)) (width : Nat) (rows : List (List Char)) : Prop :=
  ∃ groups : List (List (List Char)), groups.flatten = words ∧ rows = groups.map join ∧ (∀ g ∈ groups, g ≠ []) ∧
    (∀ r ∈ rows, r.length ≤ width) ∧
    ∀ (i : Nat) g w h, groups[i]? = some g → groups[i + 1]? = some (w :: h) → width < (join (g ++ [w])).length

end Ocgis.Spec
