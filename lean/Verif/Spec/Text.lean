import Verif.Model.Text

/-! What the string operations mean. -/

namespace Ocgis.Spec
open Ocgis Ocgis.Text

/-- The ASCII characters Python takes as blanks: tab, line feed, vertical tab, form feed, carriage return, the four
separators, space. -/
def Blank (c : Char) : Prop := c.toNat ∈ [9, 10, 11, 12, 13, 28, 29, 30, 31, 32]

instance (c : Char) : Decidable (Blank c) := inferInstanceAs (Decidable (_ ∈ _))

/-- `t` is `s` without its leading and trailing blanks. -/
def Trimmed (s t : Text) : Prop :=
  (∃ a b, s = a ++ t ++ b ∧ (∀ c ∈ a, Blank c) ∧ ∀ c ∈ b, Blank c)
  ∧ (∀ c, t.head? = some c → ¬Blank c) ∧ ∀ c, t.getLast? = some c → ¬Blank c

/-- A decimal numeral with its value: digits, with single underscores between them if need be. -/
inductive Numeral : Text → Nat → Prop
  | one (c) : c.isDigit = true → Numeral [c] (digit c)
  | next (s n c) : Numeral s n → c.isDigit = true → Numeral (s ++ [c]) (10 * n + digit c)
  | under (s n c) : Numeral s n → c.isDigit = true → Numeral (s ++ ['_', c]) (10 * n + digit c)

/-- A numeral with an optional sign. -/
inductive SignedNumeral : Text → Int → Prop
  | plain (s n) : Numeral s n → SignedNumeral s n
  | plus (s n) : Numeral s n → SignedNumeral ('+' :: s) n
  | minus (s n) : Numeral s n → SignedNumeral ('-' :: s) (-(n : Int))

/-- A text that Python reads as an integer: a numeral with blanks around it. -/
def IntText (s : Text) (i : Int) : Prop := ∃ t, Trimmed s t ∧ SignedNumeral t i

/-- The texts `format_bool` should know: integers (true unless zero) and the words for true and false in any case. -/
inductive BoolText : Text → Bool → Prop
  | int (s i) : IntText s i → BoolText s (decide (i ≠ 0))
  | yes (s) : lower s = "t".toList ∨ lower s = "true".toList → BoolText s true
  | no (s) : lower s = "f".toList ∨ lower s = "false".toList → BoolText s false

/-- Words put together with a separator. -/
def joined (sep : Char) : List Text → Text
  | [] => []
  | [w] => w
  | w :: v :: ws => w ++ sep :: joined sep (v :: ws)

end Ocgis.Spec
