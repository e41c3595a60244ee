import Verif.Model.CalcParm
import Verif.Proofs.Text
import Verif.Proofs.MapM
import Mathlib.Data.List.Forall2

/-! Vocabulary for the statements about the calculation argument. -/

namespace Ocgis.Spec
open Ocgis Ocgis.Text Ocgis.CalcParm

/-- A calculation asked for: function, alias, keyword parameters. -/
structure Request where
  func : Text
  label : Text
  kwds : List (Text × Val)

/-- The last class with a key in a list. -/
def LastIn (l : List Class) (key : Text) (c : Class) : Prop :=
  ∃ l1 l2, l = l1 ++ c :: l2 ∧ c.key = key ∧ ∀ x ∈ l2, x.key ≠ key

/-- The class a key stands for: the one registered last, the library's functions being registered after all others; otherwise
ICCLIM's, if the key has its prefix. -/
def ResolvesTo (w : World) (key : Text) (c : Class) : Prop :=
  LastIn (w.reg ++ w.library) key c
  ∨ ((∀ x ∈ w.reg ++ w.library, x.key ≠ key) ∧ "icclim_".toList <+: key ∧ LastIn w.icclim key c)

/-- A class with parameters takes those in its definition and the names of its variables, and must be given those it requires. -/
def Accepts (c : Class) (names : List Text) : Prop :=
  ∀ ps, c.parms = some ps →
    (∀ n ∈ names, n ∈ c.vars ∨ ∃ t, (n, t) ∈ ps) ∧ ∀ k ∈ c.parmsRequired, k ∈ names ∧ k ∉ c.vars

/-- A definition says what was asked for. -/
def Carries (w : World) (r : Request) (d : Def) : Prop :=
  ∃ c, ResolvesTo w r.func c ∧ Accepts c (r.kwds.map Prod.fst) ∧ d = ⟨r.func, .cls c, some r.label, r.kwds, false⟩

/-- A dictionary that asks for it, with or without metadata attributes; the keywords may be left out if there are none. -/
def AsDict (r : Request) (i : Item) : Prop :=
  ∃ m, i = .dict (some r.func) (some r.label) (some r.kwds) m false
    ∨ (r.kwds = [] ∧ i = .dict (some r.func) (some r.label) none m false)

/-- Lower case. -/
def IsLower (t : Text) : Prop := ∀ c ∈ t, c.toLower = c

/-- A calculation as written in text: `key~alias!name~value!name~value`. -/
structure Written where
  func : Text
  label : Text
  kwds : List (Text × Text)

/-- The text of a keyword. -/
def kwdText (p : Text × Text) : Text := '!' :: (p.1 ++ '~' :: p.2)

/-- The text. -/
def Written.text (x : Written) : Text := x.func ++ '~' :: (x.label ++ (x.kwds.map kwdText).flatten)

/-- The parts do not contain the characters that separate them; nothing is in upper case; there are no blanks around the text. -/
def Written.Clean (x : Written) : Prop :=
  ('~' ∉ x.func ∧ '|' ∉ x.func ∧ '=' ∉ x.func) ∧ ('!' ∉ x.label ∧ '|' ∉ x.label)
  ∧ (∀ p ∈ x.kwds, ('~' ∉ p.1 ∧ '!' ∉ p.1 ∧ '|' ∉ p.1) ∧ ('~' ∉ p.2 ∧ '!' ∉ p.2 ∧ '|' ∉ p.2))
  ∧ IsLower x.text ∧ Trimmed x.text x.text

/-- Moreover no keyword is repeated. -/
def Written.Plain (x : Written) : Prop := x.Clean ∧ (x.kwds.map Prod.fst).Nodup

/-- What the text asks for: values that are numbers are numbers, others are text. -/
def Written.request (w : World) (x : Written) : Request :=
  ⟨x.func, x.label, x.kwds.map fun p => (p.1, match w.float p.2 with
    | some q => .float q
    | none => .text p.2)⟩

/-- The functions appended by a program. -/
def appended (es : List Event) : List Class :=
  es.filterMap fun e => match e with
    | .create => none
    | .append c => some c

/-- The value of a type that a value denotes. -/
inductive Denotes (w : World) : Ty → Val → Val → Prop
  | int (i) : Denotes w .int (.int i) (.int i)
  | whole (i : Int) : Denotes w .int (.float i) (.int i)
  | intText (t i) : IntText t i → Denotes w .int (.text t) (.int i)
  | float (q) : Denotes w .float (.float q) (.float q)
  | ofInt (i : Int) : Denotes w .float (.int i) (.float i)
  | floatText (t q) : w.float t = some q → Denotes w .float (.text t) (.float q)
  | yesNumber : Denotes w .float (.bool true) (.float 1)
  | noNumber : Denotes w .float (.bool false) (.float 0)
  | bool (b) : Denotes w .bool (.bool b) (.bool b)
  | zero : Denotes w .bool (.int 0) (.bool false)
  | nonzero (i : Int) : i ≠ 0 → Denotes w .bool (.int i) (.bool true)
  | zeroFloat : Denotes w .bool (.float 0) (.bool false)
  | nonzeroFloat (q : Rat) : q ≠ 0 → Denotes w .bool (.float q) (.bool true)
  | boolText (t b) : BoolText t b → Denotes w .bool (.text t) (.bool b)
  | text (t) : Denotes w .str (.text t) (.text t)

/-- A small library: the mean, counting values between two limits, daily percentiles and the heat index. -/
def mean : Class := { key := "mean".toList }
/-- See `mean`. -/
def between : Class :=
  { key := "between".toList, parms := some [("lower".toList, some .float), ("upper".toList, some .float)] }
/-- See `mean`. -/
def dailyPerc : Class :=
  { key := "daily_perc".toList, parms := some [("percentile".toList, some .float), ("only_leap_years".toList, some .bool)] }
/-- See `mean`. -/
def heatIndex : Class := { key := "heat_index".toList, vars := ["tas".toList, "rhs".toList] }
/-- An index of ICCLIM. -/
def icclimTG : Class := { key := "icclim_TG".toList }

/-- The world with that library; `float` reads integers only. -/
def world : World :=
  { library := [mean, between, dailyPerc, heatIndex], icclim := [icclimTG], reg := [],
    float := fun t => (toInt t).map fun i : Int => (i : Rat), str := fun _ => [] }

/-- A program that registers a function twice. -/
def program : List Event :=
  [.create, .append { key := "double".toList }, .create,
   .append { key := "double".toList, vars := ["a".toList] }, .create]

/-- The texts among the values of a request are lower case. -/
def LowerValues (r : Request) : Prop := ∀ k t, (k, Val.text t) ∈ r.kwds → IsLower t

end Ocgis.Spec
