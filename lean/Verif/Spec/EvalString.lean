import Verif.Model.EvalString

/-! Vocabulary for the statements about calculations given as text. -/

namespace Ocgis.Spec

/-- Letters, digits and the underscore. -/
def wordChar (c : Char) : Bool := c.isAlphanum || c == '_'

/-- A piece of an expression: a run of letters, digits and underscores, or one other character. -/
inductive Piece where
  | word (w : List Char)
  | sign (c : Char)
  deriving DecidableEq, Repr

/-- The text of a piece. -/
def pieceText : Piece → List Char
  | .word w => w
  | .sign c => [c]

/-- The text of an expression. -/
def textOf (T : List Piece) : List Char := T.flatMap pieceText

/-- The pieces are those of their text: words are not empty and only of word characters, signs are other characters, and no two
words meet. -/
def Pieces : List Piece → Prop
  | [] => True
  | .sign c :: T => wordChar c = false ∧ Pieces T
  | .word w :: T => w ≠ [] ∧ (∀ c ∈ w, wordChar c = true) ∧ (∀ w' T', T ≠ .word w' :: T') ∧ Pieces T

/-- The functions that may be used. -/
def functions : List (List Char) := ["exp".toList, "log".toList, "abs".toList, "power".toList]

/-- Arithmetic operators and brackets. -/
def operators : List Char := ['(', ')', '+', '-', '*', '/']

/-- Every variable stands at the start or right after an operator or bracket, and right before the end, an operator or bracket, or,
if it is not at the start, a comma.  `prev` is the piece before. -/
def Placed (vars : List (List Char)) : Option Piece → List Piece → Prop
  | _, [] => True
  | _, .sign c :: T => Placed vars (some (.sign c)) T
  | prev, .word w :: T =>
    (w ∈ vars → (prev = none ∨ ∃ c ∈ operators, prev = some (.sign c)) ∧
      (T = [] ∨ ∃ c T', T = .sign c :: T' ∧ (c ∈ operators ∨ (c = ',' ∧ prev ≠ none)))) ∧
    Placed vars (some (.word w)) T

/-- Names variables may have: of word characters, not those of functions or of the array module, and none is the name under which
another is looked up. -/
def GoodNames (vars : List (List Char)) : Prop :=
  vars.Nodup ∧ (∀ k ∈ vars, k ≠ [] ∧ (∀ c ∈ k, wordChar c = true) ∧ k ∉ functions ∧ k ≠ "np".toList) ∧
  (∀ k ∈ vars, ∀ k' ∈ vars, k ≠ "_exec_".toList ++ k')

/-- No function name is a part of another word. -/
def FunctionsApart (T : List Piece) : Prop :=
  ∀ w, Piece.word w ∈ T → w ∈ functions ∨ ∀ f ∈ functions, ¬ f <:+: w

/-- A word that is not a number. -/
def isName (w : List Char) : Prop := ∃ c ∈ w, c.isAlpha = true

/-- The expression to be evaluated: functions of the array module and the arrays of the variables instead of the names. -/
def wanted (vars : List (List Char)) (T : List Piece) : List Char :=
  T.flatMap fun
    | .sign c => [c]
    | .word w => if w ∈ functions then "np.".toList ++ w else if w ∈ vars then "_exec_".toList ++ w else w

/-- The variables of an expression: names that are not functions. -/
def isVariable (T : List Piece) (w : List Char) : Prop := Piece.word w ∈ T ∧ isName w ∧ w ∉ functions

/-- The pieces of `4*exp(tas)-power(tas+pr,2)`. -/
def samplePieces : List Piece :=
  [.word ['4'], .sign '*', .word "exp".toList, .sign '(', .word "tas".toList, .sign ')', .sign '-',
    .word "power".toList, .sign '(', .word "tas".toList, .sign '+', .word "pr".toList, .sign ',', .word ['2'], .sign ')']

/-- The variables `tas` and `pr`. -/
def sampleVars : List (List Char) := ["tas".toList, "pr".toList]

end Ocgis.Spec
