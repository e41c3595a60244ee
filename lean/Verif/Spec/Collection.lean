import Verif.Model.Collection
/-!
# Consistent collections
-/
namespace Ocgis.Spec
open Ocgis.Collection

/-- A collection is consistent. -/
structure Consistent (c : Coll) : Prop where
  /-- dictionaries have each key once -/
  dimKeys : (c.dims.map (·.1)).Nodup
  varKeys : (c.vars.map (·.1)).Nodup
  /-- each variable is stored under its own name -/
  named : ∀ k v, (k, v) ∈ c.vars → v.name = k
  /-- every dimension of a variable is stored, with the same size; it has each dimension once -/
  rank : ∀ k v, (k, v) ∈ c.vars → v.dims.length = v.shape.length ∧ v.dims.Nodup
  sizes : ∀ k v, (k, v) ∈ c.vars → ∀ (i : Nat) d n, v.dims[i]? = some d → v.shape[i]? = some n → (d, n) ∈ c.dims
  /-- tags name stored variables, once -/
  tagged : ∀ t ns, (t, ns) ∈ c.tags → ns.Nodup ∧ ∀ n ∈ ns, n ∈ c.vars.map (·.1)

/-- The operations, in the state in which they are carried out, that keep a collection consistent: nothing is forced, what is added
is consistent, new names are not in use, tagged names are stored and renamed variables are not tagged. -/
def Careful (c : Coll) : Op → Prop
  | .addDimension _ _ force => force = false
  | .addVariable parent force => force = false ∧ Consistent parent
  | .removeVariable _ _ => True
  | .renameDimension old new => old = new ∨ new ∉ c.dims.map (·.1)
  | .appendToTags _ names _ => ∀ n ∈ names, n ∈ c.vars.map (·.1)
  | .setName old new => old = new ∨ (new ∉ c.vars.map (·.1) ∧ ∀ t ns, (t, ns) ∈ c.tags → old ∉ ns)

/-- Every operation of the history is careful in the state it meets. -/
def CarefulHistory : Coll → List Op → Prop
  | _, [] => True
  | c, o :: os => Careful c o ∧ CarefulHistory (step c o).1 os

end Ocgis.Spec
