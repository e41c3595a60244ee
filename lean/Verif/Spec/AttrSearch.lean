import Verif.Model.AttrSearch
/-!
# Variables with an attribute
-/
namespace Ocgis.Spec
open Ocgis.AttrSearch

/-- Every attribute has one value. -/
def OneValueEach {V} (v : Tagged V) : Prop := (v.attrs.map (·.1)).Nodup

/-- The variable has the attribute with this value. -/
def CarriesAttr {V} (v : Tagged V) (k : String) (a : Option V) : Prop := (k, a) ∈ v.attrs

instance {V} [DecidableEq V] (v : Tagged V) (k : String) (a : Option V) : Decidable (CarriesAttr v k a) := by unfold CarriesAttr; infer_instance

/-- The variable has an attribute of that name that the question accepts. -/
def Accepted {V} (p : Option V → Bool) (k : String) (v : Tagged V) : Prop := ∃ a, CarriesAttr v k a ∧ p a = true

/-- How many attributes have the value. -/
def attrsWith {V} [DecidableEq V] (a : Option V) (v : Tagged V) : Nat := (v.attrs.filter fun x => x.2 = a).length

end Ocgis.Spec
