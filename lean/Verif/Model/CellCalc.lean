import Verif.Model.Aggregate
/-!
# Calculations cell by cell

Calculations with several variables (`AbstractMultivariateFunction`), with one variable (`AbstractUnivariateFunction`) and string expressions
(`EvalFunction`) as far as they work on each cell by itself: which values go into which cell of the output.  Arrays are conformed as in
`Aggregate.lean`.
-/
namespace Ocgis.CellCalc
open Ocgis Ocgis.Array Ocgis.Aggregate

/-- A variable of the field: the crosswalked names of its dimensions (src/ocgis/calc/base.py:410-425), its array, its mask if it has one,
the conversion of an assignment to an array of its data type, the value new arrays of its kind are filled with
(src/ocgis/variable/base.py:1055-1064) and its units. -/
structure Operand (α : Type _) where
  names : List String
  shape : List Nat
  value : List Nat → α
  mask : Option (List Nat → Bool) := none
  store : α → α := id
  fill : α
  units : Option String := none

/-- An element of `get_masked_value` (src/ocgis/variable/base.py:932-943): without a mask nothing is masked. -/
def Operand.cell {α : Type _} (o : Operand α) (idx : List Nat) : Cell α := (o.value idx, o.mask.elim false fun m => m idx)

/-- A field's variables by name. -/
abbrev Vars (α : Type _) := List (String × Operand α)

/-- A calculation.  `f` is what it does with the elements of its variables at one place (as NumPy arithmetic does).  `hide k v` tells whether
it masks the elements `v` of its `k`-th variable in place before computing, as `HeatIndex` does (src/ocgis/calc/library/index/heat_index.py:26-29). -/
structure Calc (α : Type _) where
  f : List (Cell α) → Cell α
  hide : Nat → α → Bool := fun _ _ => false
  /-- whether the `k`-th variable occurs in what is computed; others do not influence the shape of the result -/
  uses : Nat → Bool := fun _ => true

/-- The elements a calculation sees in its `k`-th variable. -/
def Calc.see {α : Type _} (c : Calc α) (k : Nat) (o : Operand α) (idx : List Nat) : Cell α :=
  (o.value idx, (o.cell idx).2 || c.hide k (o.value idx))

/-- The choices of extra indices a variable is iterated over (src/ocgis/calc/base.py:427-439, 536-541).  An extra dimension of length
zero gives an index that is out of bounds. -/
def choicesOf {α : Type _} (o : Operand α) : Res (List (List (String × Nat))) :=
  if (extras o.names o.shape).any fun ns => ns.2 == 0 then .error .indexError else .ok (extraChoices (extras o.names o.shape))

/-- `arr_fill.__getitem__(slc)` with the indices of a variable (src/ocgis/calc/base.py:538-542): the output has the dimensions of the first
variable, not those of the one the indices are made for. -/
def fillIndexable {α : Type _} (fillShape : List Nat) (o : Operand α) (choice : List (String × Nat)) : Bool :=
  decide (o.names.length ≤ fillShape.length) &&
    choice.all fun ni => decide (ni.2 < fillShape.getD (o.names.idxOf ni.1) 0)

/-- `zip(*itrs)` over lists: as many rows as the shortest has. -/
def zipAll {β : Type _} (ls : List (List β)) : List (List β) :=
  (List.range ((ls.map List.length).min?.getD 0)).map fun i => ls.filterMap (·[i]?)

/-- The shape of NumPy arithmetic between two arrays of the same number of dimensions. -/
def bshape : List Nat → List Nat → Option (List Nat)
  | a :: as, b :: bs => do
    let rest ← bshape as bs
    if a = b then some (a :: rest) else if a = 1 then some (b :: rest) else if b = 1 then some (a :: rest) else none
  | [], [] => some []
  | _, _ => none

/-- The shape of NumPy arithmetic between several arrays. -/
def resultShape : List (List Nat) → Option (List Nat)
  | [] => none
  | [s] => some s
  | s :: rest => do bshape s (← resultShape rest)

/-- Where an element of the result comes from in an array of this shape. -/
def clip (shape idx : List Nat) : List Nat := List.zipWith (fun s i => if s = 1 then 0 else i) shape idx

/-- All indices of an array of a shape. -/
def indices : List Nat → List (List Nat)
  | [] => [[]]
  | n :: ns => (List.range n).flatMap fun i => (indices ns).map (i :: ·)

/-- `array[:] = res` is possible: every axis of the result has the length of the array's or one. -/
def assignable (res target : List Nat) : Bool := res.length == target.length && (res.zip target).all fun p => p.1 == p.2 || p.1 == 1

/-- One round of the loop (src/ocgis/calc/base.py:849-859, 723-727; eval_function.py:69-75): what is written to the output, in the data
type of the output.  An expression without variables is a number and has no `data`. -/
def roundWrites {α : Type _} (c : Calc α) (ops : List (Operand α)) (store : α → α) (views : List (Arr (List Nat))) (cfill : Arr (List Nat)) :
    Res (List (List Nat × Cell α)) :=
  let used := (views.zipIdx.filter fun p => c.uses p.2).map (·.1)
  match resultShape (used.map (·.shape)) with
  | none => .error (if used.isEmpty then .attributeError else .valueError)
  | some rs =>
    if assignable rs cfill.shape then
      .ok ((indices cfill.shape).map fun idx =>
        let res := c.f ((ops.zip views).zipIdx.map fun p => c.see p.2 p.1.1 (p.1.2.elem (clip p.1.2.shape idx)))
        (cfill.elem idx, (store res.1, res.2)))
    else .error .valueError

/-- One element of `zip(*itrs)`: the conformed arrays of all variables and the output conformed for the first one
(src/ocgis/calc/base.py:525-560, 846-857).  The exceptions of one round are raised in the order of the variables. -/
def oneRound {α : Type _} (c : Calc α) (ops : List (Operand α)) (a : Operand α) (row : List (List (String × Nat))) :
    Res (List (List Nat × Cell α)) := do
  let views ← (ops.zip row).mapM fun p => do
    if !fillIndexable a.shape p.1 p.2 then throw .indexError
    conform p.1.names p.1.shape p.2
  let cfill ← conform a.names a.shape (row.headD [])
  roundWrites c ops a.store views cfill

/-- The rounds: the choices of the variables side by side.  An iterator that would raise after another one is exhausted is left out. -/
def rows {α : Type _} (ops : List (Operand α)) : Res (List (List (List (String × Nat)))) := do
  return zipAll (← ops.mapM choicesOf)

/-- The loop over cells: the array of the output, which starts with the fill value (src/ocgis/calc/base.py:834-859). -/
def compute {α : Type _} (c : Calc α) (ops : List (Operand α)) : Res (Arr (Cell α)) :=
  match ops with
  | [] => .error .valueError
  | a :: rest => do
    let rs ← rows (a :: rest)
    let parts ← rs.mapM (oneRound c (a :: rest) a)
    return ⟨a.shape, applyWrites (fun _ => (a.fill, false)) parts.flatten⟩

/-- The places of a variable that are conformed in some round; its mask is changed in place there. -/
def visited {α : Type _} (o : Operand α) (choices : List (List (String × Nat))) (idx : List Nat) : Bool :=
  choices.any fun ch =>
    match conform o.names o.shape ch with
    | .ok v => ((indices v.shape).map v.elem).contains idx
    | .error _ => false

/-- The mask of the `k`-th variable afterwards.  A variable without a mask gets a new one for the calculation only. -/
def touched {α : Type _} (c : Calc α) (k : Nat) (o : Operand α) (choices : List (List (String × Nat))) : Operand α :=
  { o with mask := o.mask.map fun m idx => m idx || (visited o choices idx && c.hide k (o.value idx)) }

/-- `parent[name]` (src/ocgis/base.py:174-179). -/
def getVar {α : Type _} (vs : Vars α) (n : String) : Res (Operand α) :=
  match vs.find? fun p => p.1 == n with
  | some p => .ok p.2
  | none => .error .keyError

/-- Replace a variable. -/
def setVar {α : Type _} (vs : Vars α) (n : String) (o : Operand α) : Vars α := vs.map fun p => if p.1 == n then (n, o) else p

/-- The field after the calculation: the masks of its targets may have been changed.  Different targets are different variables. -/
def fieldAfter {α : Type _} (c : Calc α) (vs : Vars α) (targets : List String) (ops : List (Operand α))
    (rs : List (List (List (String × Nat)))) : Vars α :=
  (targets.zip ops).zipIdx.foldl (fun w p => setVar w p.1.1 (touched c p.2 p.1.2 (rs.filterMap (·[p.2]?)))) vs

/-- A variable made from an array with a mask (`set_value`, src/ocgis/variable/base.py:765-823). -/
def outVar {α : Type _} (a : Operand α) (arr : Arr (Cell α)) (withMask : Bool) : Operand α :=
  { names := a.names, shape := arr.shape, value := fun idx => (arr.elem idx).1
    mask := if withMask then some fun idx => (arr.elem idx).2 else none, store := a.store, fill := a.fill }

/-- `validate_units` of a multivariate function (src/ocgis/calc/base.py:914-923): `same` compares units.  `UnitsValidationError` is written
`definitionValidation`. -/
def validateUnits {α : Type _} (same : Option String → String → Bool) (vs : Vars α) (parms : List (String × String)) :
    List (String × String) → Res Unit
  | [] => .ok ()
  | (r, target) :: rest =>
    match parms.lookup r with
    | none => .error .keyError
    | some alias' =>
      match getVar vs alias' with
      | .error e => .error e
      | .ok v => if same v.units target then validateUnits same vs parms rest else .error .definitionValidation

/-- The names of the variables for the required ones: those given, or if any is missing the required names themselves
(src/ocgis/calc/base.py:822-827). -/
def variableNames (required : List String) (parms : List (String × String)) : List String :=
  if required.all fun r => (parms.lookup r).isSome then required.filterMap (fun r => parms.lookup r) else required

/-- `_execute_` of a multivariate function without a temporal grouping (src/ocgis/calc/base.py:817-870): the field afterwards and the
output.  Without `file_only`. -/
def multivariate {α : Type _} (c : Calc α) (same : Option String → String → Bool) (units : List (String × String)) (required : List String)
    (parms : List (String × String)) (vs : Vars α) : Res (Vars α × Operand α) := do
  validateUnits same vs parms units
  let names := variableNames required parms
  let ops ← names.mapM (getVar vs)
  let out ← compute c ops
  let rs ← rows ops
  match ops with
  | [] => throw .valueError
  | a :: _ => return (fieldAfter c vs names ops rs, outVar a out true)

/-- The same with a temporal grouping (src/ocgis/calc/base.py:864-866): the cells are computed first, and `agg`
(`aggregate_temporal`) is applied to each group of them. -/
def multivariateGrouped {α : Type _} (c : Calc α) (same : Option String → String → Bool) (units : List (String × String))
    (required : List String) (parms : List (String × String)) (vs : Vars α) (agg : List (Nat → Nat → Cell α) → Outcome α)
    (groups : List (List Bool)) : Res (Vars α × Arr (Cell α)) := do
  let r ← multivariate c same units required parms vs
  let out ← aggregate agg ⟨r.2.names, ⟨r.2.shape, r.2.cell⟩⟩ groups fun _ => (r.2.fill, false)
  return (r.1, ⟨out.shape, fun idx => (r.2.store (out.elem idx).1, (out.elem idx).2)⟩)

/-- `_execute_` of a string expression (src/ocgis/calc/eval_function.py:37-77): `expr` is the value of the expression from the values of
variables, `occurs` tells which occur in it (see `EvalString.lean`).  All data variables of the field take part, in their order, whether or not they occur in it, and the output is like the first.
The array with the mask is not given back to the output variable (line 77, other than calc/base.py:730 and 862). -/
def evaluate {α : Type _} (expr : (String → Option (Cell α)) → Cell α) (occurs : String → Bool) (data : List String) (vs : Vars α) : Res (Operand α) := do
  let ops ← data.mapM (getVar vs)
  let out ← compute { f := fun cs => expr fun n => (data.zip cs).lookup n, uses := fun k => occurs (data.getD k "") } ops
  match ops with
  | [] => throw .valueError
  | a :: _ => return outVar a out false

/-- `_execute_` of a function of one variable, without a grouping (src/ocgis/calc/base.py:703-738), for one variable. -/
def univariate {α : Type _} (f : Cell α → Cell α) (o : Operand α) : Res (Operand α) := do
  let out ← compute { f := fun cs => f (cs.headD (o.fill, false)) } [o]
  return outVar o out true

/-- `Divide` (src/ocgis/calc/library/math.py:7-16) on fractions: division by zero is masked. -/
def divide : Calc Rat where
  f := fun
    | [a, b] => (if b.1 = 0 then a.1 else a.1 / b.1, a.2 || b.2 || decide (b.1 = 0))
    | _ => (0, true)

/-- The formula of `HeatIndex` (src/ocgis/calc/library/index/heat_index.py:17-36); temperatures below 80 and humidities below 40 are
masked. -/
def heatIndex : Calc Rat where
  f := fun
    | [t, h] => (-42379 / 1000 + 204901523 / 100000000 * t.1 + 1014333127 / 100000000 * h.1 - 22475541 / 100000000 * t.1 * h.1
        - 683783 / 100000000 * (t.1 * t.1) - 5481717 / 100000000 * (h.1 * h.1) + 122874 / 100000000 * (t.1 * t.1) * h.1
        + 85282 / 100000000 * t.1 * (h.1 * h.1) - 199 / 100000000 * (t.1 * t.1) * (h.1 * h.1), t.2 || h.2)
    | _ => (0, true)
  hide := fun k v => if k = 0 then decide (v < 80) else decide (v < 40)

/-- Assignment to an integer array: towards zero. -/
def toInt (v : Rat) : Rat := if v < 0 then -((-v).floor : Rat) else (v.floor : Rat)

end Ocgis.CellCalc
