import Verif.Py

/-!
# Calculations given as text

`EvalFunction` (src/ocgis/calc/eval_function.py:79-162): the text of an expression is turned into a Python expression by
replacing function names and variable names.  Text is a list of characters.
-/

namespace Ocgis.EvalString
open Ocgis

/-- `[A-Za-z0-9_]`. -/
def isWord (c : Char) : Bool := c.isAlphanum || c == '_'

/-- `math_set`, `[(\-+*/)]` (eval_function.py:124). -/
def inMath (c : Char) : Bool := c == '(' || c == '-' || c == '+' || c == '*' || c == '/' || c == ')'

/-- `constants.ENABLED_NUMPY_UFUNCS` (src/ocgis/constants.py:132). -/
def ufuncs : List (List Char) := ["exp".toList, "log".toList, "abs".toList, "power".toList]

/-- `re.findall("[A-Za-z0-9_]+", s)`; `cur` is the run of characters read so far. -/
def findWords (cur : List Char) : List Char → List (List Char)
  | [] => if cur = [] then [] else [cur]
  | c :: cs =>
    if isWord c then findWords (cur ++ [c]) cs
    else if cur = [] then findWords [] cs
    else cur :: findWords [] cs

/-- `re.search("[A-Za-z]", s) is not None`. -/
def hasLetter (s : List Char) : Bool := s.any Char.isAlpha

/-- The names in an expression (eval_function.py:134-135, 93-94). -/
def names (expr : List Char) : List (List Char) := (findWords [] expr).filter hasLetter

/-- `s.split('=')`; `cur` is the part read so far. -/
def splitEq (cur : List Char) : List Char → List (List Char)
  | [] => [cur]
  | c :: cs => if c = '=' then cur :: splitEq [] cs else splitEq (cur ++ [c]) cs

/-- `s.replace(pat, rep)` for a `pat` that is not empty; the number counts characters still to be skipped. -/
def replGo (pat rep : List Char) : Nat → List Char → List Char
  | _, [] => []
  | n + 1, _ :: cs => replGo pat rep n cs
  | 0, c :: cs =>
    if pat.isPrefixOf (c :: cs) then rep ++ replGo pat rep (pat.length - 1) cs else c :: replGo pat rep 0 cs

/-- `s.replace(pat, rep)`. -/
def replaceAll (pat rep s : List Char) : List Char := replGo pat rep 0 s

/-- The regular expressions of `re_expr_base` (eval_function.py:126), in order. -/
inductive Pat where
  /-- `{1}{0}{1}` -/
  | mid
  /-- `^{0}{1}` -/
  | first
  /-- `{1}{0}$` -/
  | last
  /-- `^{0}$` -/
  | whole
  /-- `{1}{0},` -/
  | comma
  deriving DecidableEq, Repr

/-- The patterns in order. -/
def patterns : List Pat := [.mid, .first, .last, .whole, .comma]

/-- Whether the text after the name `k` at the start of `s` satisfies `p`; `none` stands for the end of the text. -/
def nameThen (k : List Char) (p : Option Char → Bool) (s : List Char) : Bool :=
  k.isPrefixOf s && p (s.drop k.length).head?

/-- After a name: an operator or bracket. -/
def thenMath (o : Option Char) : Bool := o.any inMath

/-- After a name: the end. -/
def thenEnd (o : Option Char) : Bool := o.isNone

/-- After a name: a comma. -/
def thenComma (o : Option Char) : Bool := o == some ','

/-- The length of the match of a pattern for name `k` at the start of `s`, if any; `start` tells whether this is the start of the
text.  A newline at the end, which `$` disregards, is left out. -/
def matchLen (k : List Char) (p : Pat) (start : Bool) (s : List Char) : Option Nat :=
  match p, s with
  | _, [] => none
  | .mid, c :: cs => if inMath c && nameThen k thenMath cs then some (k.length + 2) else none
  | .first, s => if start && nameThen k thenMath s then some (k.length + 1) else none
  | .last, c :: cs => if inMath c && nameThen k thenEnd cs then some (k.length + 1) else none
  | .whole, s => if start && nameThen k thenEnd s then some k.length else none
  | .comma, c :: cs => if inMath c && nameThen k thenComma cs then some (k.length + 2) else none

/-- `re.sub(pattern, repl, s)` with `repl` replacing `k` by `v` in the match (eval_function.py:153-156): left to right, not
overlapping. -/
def subGo (k v : List Char) (p : Pat) : Nat → Bool → List Char → List Char
  | _, _, [] => []
  | n + 1, _, _ :: cs => subGo k v p n false cs
  | 0, start, c :: cs =>
    match matchLen k p start (c :: cs) with
    | some (l + 1) => replaceAll k v ((c :: cs).take (l + 1)) ++ subGo k v p l false cs
    | _ => c :: subGo k v p 0 false cs

/-- `re.search(pattern, s) is not None`. -/
def search (k : List Char) (p : Pat) : Bool → List Char → Bool
  | _, [] => false
  | start, c :: cs => (matchLen k p start (c :: cs)).isSome || search k p false cs

/-- The `while` loop for one pattern (eval_function.py:152-161): substitute until nothing matches, at most `n + 1` times. -/
def subLoop (k v : List Char) (p : Pat) : Nat → List Char → List Char
  | 0, s => subGo k v p 0 true s
  | n + 1, s =>
    if search k p true (subGo k v p 0 true s) then subLoop k v p n (subGo k v p 0 true s) else subGo k v p 0 true s

/-- All patterns for one variable (eval_function.py:148-161). -/
def subVar (maxCtr : Nat) (k v : List Char) (s : List Char) : List Char :=
  patterns.foldl (fun s p => subLoop k v p maxCtr s) s

/-- Adding the prefix `np.` to the function names (eval_function.py:144-145). -/
def prefixFuncs (s : List Char) : List Char :=
  ufuncs.foldl (fun s f => replaceAll f ("np.".toList ++ f) s) s

/-- `_get_eval_string_` (eval_function.py:106-162): the Python expression and the name of the output. -/
def evalString (expr : List Char) (vars : List (List Char × List Char)) : Res (List Char × List Char) :=
  match splitEq [] expr with
  | [out, rhs] =>
    if (names rhs).all fun s => ufuncs.contains s || (vars.map Prod.fst).contains s then
      let e := prefixFuncs rhs
      .ok (vars.foldl (fun s kv => subVar e.length kv.1 kv.2 s) e, out)
    else .error .valueError
  | _ => .error .valueError

/-- `map_vars` of `_execute_` (eval_function.py:42-46): every variable of the field. -/
def mapVars (variables : List (List Char)) : List (List Char × List Char) :=
  variables.map fun n => (n, "_exec_".toList ++ n)

/-- `is_multivariate` (eval_function.py:79-104).  Without an equals sign there is no second part. -/
def isMultivariate (expr : List Char) : Res Bool :=
  match splitEq [] expr with
  | _ :: rhs :: _ => .ok (decide (((names rhs).filter fun s => !ufuncs.contains s).eraseDups.length > 1))
  | _ => .error .indexError

end Ocgis.EvalString
