import Verif.Model.FieldCoords
/-! What the user did last, apart from the code of fields. -/
namespace Ocgis.FieldCoords
open Ocgis.DimMap (Attrs noAttrs defaultAttrs)

/-- A call that sets a key. -/
def Op.sets (k : Key) : Op → Bool
  | .set j _ _ => decide (j = k)
  | _ => false

/-- What a key was set to last; `none`: never, or to `None`. -/
def lastSet (k : Key) : List Op → Option (Incoming × Option (List String))
  | [] => none
  | o :: os =>
    if os.any (Op.sets k) then lastSet k os
    else match o with
      | .set j a d => if j = k then a.map fun i => (i, d) else none
      | _ => none

/-- The variables a key was set to since it was last set to `None`, in order; `acc` those from before. -/
def settings (k : Key) : List Var → List Op → List Var
  | acc, [] => acc
  | acc, .set j (some i) _ :: os => settings k (if j = k then acc ++ i.main.toList else acc) os
  | acc, .set j none _ :: os => settings k (if j = k then [] else acc) os
  | acc, .read _ :: os => settings k acc os
  | acc, .addData _ _ :: os => settings k acc os

/-- The variable named in a call and its bounds are there, no name occurs twice, and the dimension is given or
clear. -/
structure Incoming.Sound (i : Incoming) (d : Option (List String)) (v : Var) : Prop where
  main : i.main = some v
  names : (i.vars.map (·.1)).Nodup
  bounds : ∀ b, v.bounds = some b → b ≠ i.name ∧ ∃ bv, (b, bv) ∈ i.vars
  dimension : d.isSome ∨ v.dims.length ≤ 1

/-- The names of the variables for different keys, and those of data variables, are different: every name belongs to one
key or to none. -/
def Apart (own : String → Option Key) : Op → Prop
  | .set k (some i) d => (∃ v, i.Sound d v) ∧ ∀ p ∈ i.vars, own p.1 = some k
  | .set _ none _ => True
  | .read _ => True
  | .addData n _ => own n = none

/-- The data variables in the order of their first addition, each as added last. -/
def dataOf : List (String × Var) → List Op → List (String × Var)
  | acc, [] => acc
  | acc, .addData n v :: os =>
    dataOf (if n ∈ acc.map (·.1) then acc.map (fun q => if q.1 = n then (n, v) else q) else acc ++ [(n, v)]) os
  | acc, .set _ _ _ :: os => dataOf acc os
  | acc, .read _ :: os => dataOf acc os

/-- Reading the key shows the variable: its array, dimensions and bounds, and but for time the very object; bounds have
the units of the variable, and the dimension is the given one or that of the variable. -/
def Shows (f : Field) (k : Key) : Option (Incoming × Option (List String)) → Prop
  | none => ∃ g, f.read k = .ok (none, g)
  | some (i, d) => ∃ g v w, f.read k = .ok (some i.name, g) ∧ i.main = some v ∧ g.vars i.name = some w
      ∧ w.data = v.data ∧ w.dims = v.dims ∧ w.bounds = v.bounds ∧ (k ≠ .time → w.obj = v.obj)
      ∧ (∀ b, v.bounds = some b → w.attrs "bounds" = some b ∧ ∃ bv bw, (b, bv) ∈ i.vars ∧ g.vars b = some bw
          ∧ bw.data = bv.data ∧ bw.dims = bv.dims ∧ (k ≠ .time → bw.obj = bv.obj)
          ∧ ∀ u, w.attrs "units" = some u → bw.attrs "units" = some u)
      ∧ (g.map k).dimension = d.getD v.dims

/-- What time variables have when nothing is said. -/
def timeDefault (k : Key) (a : String) : Option String :=
  if k = .time ∧ a = "calendar" then some "standard"
  else if k = .time ∧ a = "units" then some "days since 0001-01-01 00:00:00"
  else none

/-- An attribute shown by a key after it was set to the variables: the first variable or the default of the key, then the
next variables. -/
def shownAttr (k : Key) (vs : List Var) (a : String) : Option String :=
  match vs with
  | [] => none
  | v :: rest => (v.attrs a).or ((defaultAttrs k.str a).or ((rest.findSome? fun w => w.attrs a).or (timeDefault k a)))

end Ocgis.FieldCoords
