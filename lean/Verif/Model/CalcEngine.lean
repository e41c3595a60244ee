import Verif.Model.EvalString

/-!
# The calculation engine

`CalculationEngine` (src/ocgis/calc/engine.py) and the choice of targets and output names
(src/ocgis/calc/base.py).  What a calculation computes is left out (see `Aggregate.lean`, `Series.lean`): an output records which
calculation was applied to which variables under which temporal grouping.
-/

namespace Ocgis.CalcEngine
open Ocgis

/-- The kinds of calculations. -/
inductive Kind where
  /-- `AbstractUnivariateFunction`, `AbstractUnivariateSetFunction` -/
  | univariate
  /-- `AbstractMultivariateFunction`, with the names of its variables -/
  | multivariate (names : List String)
  /-- `DailyPercentile`: brings its own grouping -/
  | daily
  /-- `EvalFunction`, `MultivariateEvalFunction` -/
  | text
  deriving DecidableEq, Repr

/-- An element of `funcs`: `func` and `name`. -/
structure Func where
  kind : Kind
  func : String
  alias : String
  deriving DecidableEq, Repr

/-- Where the values of an output come from.  `γ` are temporal groupings; none: every time step. -/
structure Origin (γ : Type) where
  /-- the function applied -/
  func : String
  /-- the variables it is applied to -/
  sources : List String
  grouping : Option γ
  /-- the number of values used instead of the result -/
  sampleSize : Bool := false
  deriving DecidableEq, Repr

/-- A variable collection filled by calculations. -/
abbrev Outs (γ : Type) := List (String × Origin γ)

/-- A field: its name, its times, the names of its data variables (the tag), the other variables, and what calculations put in place
of the data variables. -/
structure Field (τ γ : Type) where
  name : String
  times : τ
  data : List String
  others : List String
  outs : Outs γ := []
  /-- the grouping that replaced the times -/
  grouped : Option γ := none
  deriving DecidableEq, Repr

/-- The configuration of an engine (engine.py:22-28) and what is known about time: `group` is `time.get_grouping(grouping)` and
`daily` is `get_grouping(['month', 'day'])`. -/
structure Config (τ γ : Type) where
  grouping : Option (τ → γ)
  daily : τ → γ
  funcs : List Func
  sampleSize : Bool := false

/-- `vc.add_variable(dv)` of an orphan (src/ocgis/variable/base.py:1860-1864). -/
def add {γ : Type} (vc : Outs γ) (name : String) (o : Origin γ) : Res (Outs γ) :=
  if (vc.map Prod.fst).contains name then .error .variableInCollection else .ok (vc ++ [(name, o)])

/-- The name of an output (src/ocgis/calc/base.py:313-318). -/
def outName (alias : String) (targets : List String) (v : String) : String :=
  if targets.length > 1 then alias ++ "_" ++ v else alias

/-- `_add_to_collection_` (src/ocgis/calc/base.py:363-401) with the sample size, if there is one. -/
def addBoth {γ : Type} (vc : Outs γ) (name : String) (o : Origin γ) (sample : Bool) : Res (Outs γ) :=
  match add vc name o with
  | .error e => .error e
  | .ok vc => if sample then add vc ("n_" ++ name) { o with sampleSize := true } else .ok vc

/-- The loop over the targets of a univariate calculation (src/ocgis/calc/base.py:703-738, 754-759); `all` are all targets. -/
def addAll {γ : Type} (f : Func) (all : List String) (tgd : Option γ) (sample : Bool) : Outs γ → List String → Res (Outs γ)
  | vc, [] => .ok vc
  | vc, v :: vs =>
    match addBoth vc (outName f.alias all v) ⟨f.func, [v], tgd, false⟩ sample with
    | .error e => .error e
    | .ok vc => addAll f all tgd sample vc vs

/-- `function.execute()` for one calculation, and the temporal grouping afterwards (engine.py:93-112).  The calculations given as text
do not have the arguments of the others: the `KeyError` leads to the function given first (106-109). -/
def runFunc {τ γ : Type} (c : Config τ γ) (field : Field τ γ) (f : Func) (tgd : Option γ) (vc : Outs γ) :
    Res (Outs γ × Option γ) :=
  match f.kind with
  | .univariate =>
    if field.data = [] then .error .valueError
    else (addAll f field.data tgd (c.sampleSize && tgd.isSome) vc field.data).map (·, tgd)
  | .multivariate names =>
    if c.sampleSize then .error .notImplemented
    else if names = [] then .error .valueError
    else if names.all (field.data ++ field.others).contains then
      (add vc f.alias ⟨f.func, names, tgd, false⟩).map (·, tgd)
    else .error .keyError
  | .daily =>
    if tgd.isSome then .error .assertionError
    else if field.data = [] then .error .valueError
    else (addAll f field.data (some (c.daily field.times)) false vc field.data).map (·, some (c.daily field.times))
  | .text =>
    if field.data = [] then .error .valueError
    else
      match c.funcs with
      | [] => .error .indexError
      | first :: _ =>
        match EvalString.evalString first.func.toList (EvalString.mapVars (field.data.map String.toList)) with
        | .error e => .error e
        | .ok (_, out) => (add vc (String.ofList out) ⟨first.func, field.data, none, false⟩).map (·, tgd)

/-- The loop over the calculations (engine.py:93-133). -/
def runFuncs {τ γ : Type} (c : Config τ γ) (field : Field τ γ) : List Func → Option γ → Outs γ → Res (Outs γ × Option γ)
  | [], tgd, vc => .ok (vc, tgd)
  | f :: fs, tgd, vc =>
    match runFunc c field f tgd vc with
    | .error e => .error e
    | .ok (vc, tgd) => runFuncs c field fs tgd vc

/-- `out_field.add_variable` for every output (engine.py:146-148). -/
def install {γ : Type} (others : List String) (outs : Outs γ) : Res Unit :=
  if outs.any fun o => others.contains o.1 then .error .variableInCollection else .ok ()

/-- The treatment of one field (engine.py:77-158); `tgd` is the grouping found for it.  Without calculations `function` is not
defined (135). -/
def executeField {τ γ : Type} (c : Config τ γ) (field : Field τ γ) (tgd : Option γ) : Res (Field τ γ) :=
  if c.funcs = [] then .error .unboundLocal
  else match runFuncs c field c.funcs tgd [] with
  | .error e => .error e
  | .ok (outs, tgd) =>
    match install field.others outs with
    | .error e => .error e
    | .ok () => .ok { field with data := outs.map Prod.fst, outs := outs, grouped := tgd }

/-- `_tgds`. -/
abbrev Cache (γ : Type) := List (String × γ)

/-- The groupings of the fields whose name is new (engine.py:65-72). -/
def remember {τ γ : Type} (c : Config τ γ) (cache : Cache γ) (fields : List (Field τ γ)) : Cache γ :=
  match c.grouping with
  | none => cache
  | some group =>
    fields.foldl (fun cache f => if (cache.lookup f.name).isSome then cache else cache ++ [(f.name, group f.times)]) cache

/-- Every field of a collection (engine.py:75-158). -/
def executeFields {τ γ : Type} (c : Config τ γ) (cache : Cache γ) : List (Field τ γ) → Res (List (Field τ γ))
  | [] => .ok []
  | f :: fs =>
    match executeField c f (cache.lookup f.name) with
    | .error e => .error e
    | .ok f' =>
      match executeFields c cache fs with
      | .error e => .error e
      | .ok fs' => .ok (f' :: fs')

/-- `execute` (engine.py:48-159) without optimizations. -/
def execute {τ γ : Type} (c : Config τ γ) (cache : Cache γ) (fields : List (Field τ γ)) :
    Res (List (Field τ γ) × Cache γ) :=
  match executeFields c (remember c cache fields) fields with
  | .error e => .error e
  | .ok fs => .ok (fs, remember c cache fields)

/-- The collections an engine works on one after the other (src/ocgis/ops/engine.py:46, 126-138). -/
def executeAll {τ γ : Type} (c : Config τ γ) : Cache γ → List (List (Field τ γ)) → Res (List (List (Field τ γ)))
  | _, [] => .ok []
  | cache, coll :: colls =>
    match execute c cache coll with
    | .error e => .error e
    | .ok (fs, cache) =>
      match executeAll c cache colls with
      | .error e => .error e
      | .ok rest => .ok (fs :: rest)

end Ocgis.CalcEngine
