import Verif.Model.GroupStack
/-!
# What stacking groups should do
-/
namespace Ocgis.Spec
open GroupStack

/-- A collection as the program makes it: names of variables differ, names of dimensions differ, also in each variable, and each dimension of a
variable is one of the collection. -/
def WellFormed (c : Coll) : Prop :=
  (c.vars.map (·.name)).Nodup ∧ (c.dims.map (·.name)).Nodup ∧ (∀ v ∈ c.vars, (v.dims.map (·.name)).Nodup) ∧ ∀ v ∈ c.vars, ∀ d ∈ v.dims, d ∈ c.dims

/-- The variable of a group has the lengths of that of the first group, and length one along the dimension of the groups. -/
def OnePlaceAlong (dim : String) (v src : Var) : Prop :=
  src.dims.length = v.dims.length ∧
    ∀ (i : Nat) d e, v.dims[i]? = some d → src.dims[i]? = some e → e.size = if d.name = dim then 1 else d.size

/-- The variable `w` is variable `v` of the first group stacked: the dimension has the length of the groups, and at each place along it are the
values of that group. -/
def Stacked (groups : List Coll) (dim : String) (v w : Var) : Prop :=
  w.name = v.name ∧ w.ty = v.ty ∧ w.dims.map (·.name) = v.dims.map (·.name) ∧
  (∀ (i : Nat) d e, v.dims[i]? = some d → w.dims[i]? = some e → e.size = if d.name = dim then groups.length else d.size) ∧
  ∀ (ix : List Nat) (a g : Nat) (d : Dim) (c : Coll) (src : Var), v.dims[a]? = some d → d.name = dim → ix.length = v.dims.length →
    (∀ (i : Nat) e k, w.dims[i]? = some e → ix[i]? = some k → k < e.size) →
    ix[a]? = some g → groups[g]? = some c → c.get? v.name = some src → w.val ix = cast v.ty (src.val (ix.set a 0))

end Ocgis.Spec
