import Verif.Model.Scopes
/-!
# Emptiness
-/
namespace Ocgis.Spec
open Ocgis.Scopes

/-- A collection itself is empty: it was made so, or one of its variables is. -/
def ItselfEmpty : Tree → Prop
  | .node (some b) _ _ => b = true
  | .node none vars _ => true ∈ vars

/-- A collection and all of its descendants satisfy `p`. -/
inductive Everywhere (p : Tree → Prop) : Tree → Prop
  | node (flag vars children) : p (.node flag vars children) → (∀ t ∈ children, Everywhere p t) → Everywhere p (.node flag vars children)

/-- The dictionary of dimensions of a collection names every object by its own name. -/
structure WellNamed (c : VC) : Prop where
  names : ∀ k d, (k, d) ∈ c.dims → c.heap d = k
  keys : (c.dims.map (·.1)).Nodup
  varKeys : (c.vars.map (·.1)).Nodup

end Ocgis.Spec
