import Verif.Model.Text

/-!
# The calculation argument

`Calc` (src/ocgis/ops/parms/definition.py:118-297) with the parts of `IterableParameter` and `AbstractParameter`
(src/ocgis/ops/parms/base.py) it uses, the function registry (src/ocgis/calc/library/register.py) and the parameters of functions
(src/ocgis/calc/base.py:589-662).
-/

namespace Ocgis.CalcParm
open Ocgis Ocgis.Text

/-- The value of a keyword parameter.  Arrays, dictionaries and `None` are `other`. -/
inductive Val where
  | int (i : Int)
  | float (q : Rat)
  | bool (b : Bool)
  | text (t : Text)
  | other (n : Nat)
  deriving DecidableEq, Repr

/-- The types in a parameter definition. -/
inductive Ty where
  | int | float | bool | str
  deriving DecidableEq, Repr

/-- A function class: its key, its parameter definition if it is an `AbstractParameterizedFunction` (no type: no checking), the
parameters it requires and, for an `AbstractMultivariateFunction`, the names of its variables. -/
structure Class where
  key : Text
  parms : Option (List (Text × Option Ty)) := none
  parmsRequired : List Text := []
  vars : List Text := []
  deriving DecidableEq, Repr

/-! ### The function registry -/

/-- What a program does with the registry: create one, or append a function to the class. -/
inductive Event where
  | create
  | append (c : Class)

/-- The list `reg`, shared by all registries (register.py:11-24, 29-31): creating one adds the functions of the library once
more. -/
def regAfter (library : List Class) : List Event → List Class → List Class
  | [], reg => reg
  | .create :: es, reg => regAfter library es (reg ++ library)
  | .append c :: es, reg => regAfter library es (reg ++ [c])

/-- `fr[key]` where `fr` was filled from a list, later ones replacing earlier ones (register.py:22-23). -/
def lookupKey (reg : List Class) (key : Text) : Option Class := reg.reverse.find? fun c => decide (c.key = key)

/-- What the argument looks at: the functions of the library, those of ICCLIM and the list of functions registered so far.  `float`
is Python's `float` of a text, without infinity and not-a-number; `str` is `str` of a number. -/
structure World where
  library : List Class
  icclim : List Class
  reg : List Class
  float : Text → Option Rat
  str : Rat → Text

/-- The class of a function (definition.py:206-227): a registry is created; ICCLIM's functions are registered if the key is not
found and begins with their prefix. -/
def findClass (w : World) (key : Text) : Option Class :=
  match lookupKey (w.reg ++ w.library) key with
  | some c => some c
  | none => if "icclim_".toList.isPrefixOf key then lookupKey (w.reg ++ w.library ++ w.icclim) key else none

/-! ### The argument -/

/-- An element: text, `None`, or a dictionary: which of the keys `func`, `name`, `kwds`, `meta_attrs` it has and whether it has any
other key.  The values of `func` and `name` are text. -/
inductive Item where
  | text (t : Text)
  | null
  | dict (func name : Option Text) (kwds : Option (List (Text × Val))) (metaAttrs : Bool) (more : Bool)
  deriving DecidableEq

/-- What may be given. -/
inductive Arg where
  | null
  | text (t : Text)
  | list (items : List Item)

/-- What a calculation refers to: text to be evaluated or a class. -/
inductive Ref where
  | eval
  | cls (c : Class)
  deriving DecidableEq, Repr

/-- An element of the argument's value.  Texts to be evaluated have no name. -/
structure Def where
  func : Text
  ref : Ref
  name : Option Text
  kwds : List (Text × Val)
  more : Bool := false
  deriving DecidableEq, Repr

/-- `s.split(sep, 1)`: two parts, or `none` if the separator does not occur. -/
def split1 (sep : Char) : Text → Option (Text × Text)
  | [] => none
  | c :: cs =>
    if c = sep then some ([], cs)
    else
      match split1 sep cs with
      | some (a, b) => some (c :: a, b)
      | none => none

/-- `d.update({k: v})` of an ordered dictionary. -/
def putKwd (d : List (Text × Val)) (k : Text) (v : Val) : List (Text × Val) :=
  if (d.map Prod.fst).contains k then d.map fun p => if p.1 = k then (k, v) else p else d ++ [(k, v)]

/-- The value of a keyword in text (definition.py:260-263). -/
def kwdValue (w : World) (t : Text) : Val :=
  match w.float t with
  | some q => .float q
  | none => .text t

/-- The loop over the keywords (definition.py:257-263); `none` for the `ValueError` of a keyword that is not `name~value`. -/
def textKwds (w : World) : List Text → List (Text × Val) → Option (List (Text × Val))
  | [], d => some d
  | t :: ts, d =>
    match split '~' t with
    | [k, v] => textKwds w ts (putKwd d k (kwdValue w v))
    | _ => none

/-- The part after the key (definition.py:254-265): the alias and the keywords.  If a keyword is malformed there are none. -/
def textRest (w : World) (s : Text) : Text × List (Text × Val) :=
  match split1 '!' s with
  | some (label, raw) => (label, (textKwds w (split '!' raw) []).getD [])
  | none => (s, [])

/-- `_parse_string_` (definition.py:252-276). -/
def parseText1 (w : World) (t : Text) : Res Item :=
  match split1 '~' t with
  | some (key, rest) => .ok (.dict (some key) (some (textRest w rest).1) (some (textRest w rest).2) false false)
  | none => if t.contains '=' then .ok (.text t) else .error .definitionValidation

/-- `AbstractParameter.parse_string` (base.py:130-142). -/
def parseString (w : World) (t : Text) : Res Item :=
  if strip (lower t) = "none".toList then .ok .null else parseText1 w (strip (lower t))

/-- Making a text keyword lower case (definition.py:235-240). -/
def lowerVal : Val → Val
  | .text t => .text (lower t)
  | v => v

/-- `_parse_` (definition.py:157-250): the flag for text to be evaluated and the definition.  A dictionary with text to be evaluated
but without attributes is a `KeyError` (182); text without an equals sign is indexed with a text (204), a `TypeError`, as is looking
for the sign in `None` (159). -/
def parseItem (w : World) : Item → Res (Bool × Def)
  | .null => .error .typeError
  | .text t => if t.contains '=' then .ok (true, ⟨t, .eval, none, [], false⟩) else .error .typeError
  | .dict func name kwds metaAttrs more =>
    if (func.map fun f => f.contains '=') = some true then
      if metaAttrs then .ok (true, ⟨func.getD [], .eval, none, [], false⟩) else .error .keyError
    else
      match name, func with
      | some n, some f =>
        match findClass w f with
        | some c => .ok (false, ⟨f, .cls c, some n, (kwds.getD []).map fun p => (p.1, lowerVal p.2), more⟩)
        | none => .error .definitionValidation
      | _, _ => .error .definitionValidation

/-- The loop over the elements (base.py:262): the flag is that of the last one. -/
def parseItems (w : World) : Bool → List Item → Res (Bool × List Def)
  | flag, [] => .ok (flag, [])
  | _, i :: is =>
    match parseItem w i with
    | .error e => .error e
    | .ok (flag, d) =>
      match parseItems w flag is with
      | .error e => .error e
      | .ok (flag, ds) => .ok (flag, d :: ds)

/-- `validate_definition` of a class (src/ocgis/calc/base.py:351-358, 613-644): only functions with parameters look at theirs. -/
def validKwds (c : Class) (names : List Text) : Bool :=
  match c.parms with
  | none => true
  | some ps =>
    (names.filter fun n => !c.vars.contains n).all (ps.map Prod.fst).contains
    && c.parmsRequired.all (names.filter fun n => !c.vars.contains n).contains

/-- Are the elements of a list all different? -/
def distinctNames : List (Option Text) → Bool
  | [] => true
  | a :: l => !l.contains a && distinctNames l

/-- The validation of one definition (definition.py:289-295). -/
def validDef (d : Def) : Bool :=
  !d.more && (match d.ref with
    | .eval => true
    | .cls c => validKwds c (d.kwds.map Prod.fst))

/-- `_validate_` (definition.py:278-295): nothing is looked at if the flag is set. -/
def validateDefs (flag : Bool) (ds : List Def) : Res Unit :=
  if flag then .ok ()
  else if !distinctNames (ds.map Def.name) then .error .definitionValidation
  else if ds.all validDef then .ok ()
  else .error .definitionValidation

/-- The elements given by text (base.py:300-305). -/
def itemsOf (w : World) : Arg → Res (Option (List Item))
  | .null => .ok none
  | .list is => .ok (some is)
  | .text t =>
    match (split '|' t).mapM (parseString w) with
    | .error e => .error e
    | .ok [.null] => .ok none
    | .ok is => .ok (some is)

/-- `Calc(value).value` (base.py:15-30, 62-93). -/
def calcValue (w : World) (a : Arg) : Res (Option (List Def)) :=
  match itemsOf w a with
  | .error e => .error e
  | .ok none => .ok none
  | .ok (some is) =>
    match parseItems w false is with
    | .error e => .error e
    | .ok (flag, ds) =>
      match validateDefs flag ds with
      | .error e => .error e
      | .ok () => .ok (some ds)

/-! ### Parameters at execution -/

/-- Rounding towards zero. -/
def toZero (q : Rat) : Int := if 0 ≤ q then q.floor else q.ceil

/-- `isinstance(v, type)` or `type(v)` (calc/base.py:653-657).  `str` of integers and truth values is left out. -/
def convert (w : World) : Ty → Val → Res Val
  | .int, .int i => .ok (.int i)
  | .int, .bool b => .ok (.bool b)
  | .int, .float q => .ok (.int (toZero q))
  | .int, .text t =>
    match toInt t with
    | some i => .ok (.int i)
    | none => .error .valueError
  | .float, .float q => .ok (.float q)
  | .float, .int i => .ok (.float i)
  | .float, .bool b => .ok (.float (if b then 1 else 0))
  | .float, .text t =>
    match w.float t with
    | some q => .ok (.float q)
    | none => .error .valueError
  | .bool, .bool b => .ok (.bool b)
  | .bool, .int i => .ok (.bool (decide (i ≠ 0)))
  | .bool, .float q => .ok (.bool (decide (q ≠ 0)))
  | .bool, .text t => .ok (.bool (decide (t ≠ [])))
  | .str, .text t => .ok (.text t)
  | .str, .float q => .ok (.text (w.str q))
  | _, _ => .error .typeError

/-- One parameter (calc/base.py:651-671).  A name that is not in the definition must be a variable; a function without variables has
no such attribute. -/
def formatParm (w : World) (c : Class) (ps : List (Text × Option Ty)) (k : Text) (v : Val) : Res Val :=
  match ps.lookup k with
  | some none => .ok v
  | some (some t) => convert w t v
  | none =>
    if c.vars = [] then .error .attributeError
    else if c.vars.contains k then .ok v else .error .keyError

/-- `_format_parms_` (calc/base.py:646-672); other functions take the keywords as they are. -/
def formatParms (w : World) (c : Class) (kwds : List (Text × Val)) : Res (List (Text × Val)) :=
  match c.parms with
  | none => .ok kwds
  | some ps => kwds.mapM fun p =>
    match formatParm w c ps p.1 p.2 with
    | .ok v => .ok (p.1, v)
    | .error e => .error e

end Ocgis.CalcParm
