import Verif.Model.Groups

/-! Vocabulary for the statements about group hierarchies. -/

namespace Ocgis.Spec
open Ocgis Ocgis.Groups

/-- `GroupAt g p h`: following the names `p` down from `g` leads to the group `h`. -/
inductive GroupAt {α : Type} : G α → List String → G α → Prop
  | here (g) : GroupAt g [] g
  | down (d gs k c p h) : (k, c) ∈ gs → GroupAt c p h → GroupAt (.mk d gs) (k :: p) h

/-- No group has two subgroups of the same name: the tree comes from dictionaries. -/
inductive Distinct {α : Type} : G α → Prop
  | mk (d gs) : (gs.map Prod.fst).Nodup → (∀ c ∈ gs, Distinct c.2) → Distinct (.mk d gs)

/-- No path into the tree is as long as `n`. -/
def Shallower {α : Type} (n : Nat) (g : G α) : Prop := ∀ p h, GroupAt g p h → p.length < n

/-- The key sequence of a path. -/
def keysOf (p : List String) : List (Option String) := none :: p.map some

/-- The tree has a group with contents `x` at `p`. -/
def HasData {α : Type} (g : G α) (p : List String) (x : α) : Prop := ∃ h, GroupAt g p h ∧ h.data = x

end Ocgis.Spec
