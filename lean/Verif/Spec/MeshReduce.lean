import Verif.Model.MeshReduce

/-!
# What is expected of slicing and reducing a mesh
-/

namespace Ocgis.Spec
open Ocgis Ocgis.Geomc

/-- The node numbers mentioned anywhere in a connectivity. -/
def Mentions : Conn → Int → Prop
  | .rows rs, v => ∃ r ∈ rs, v ∈ r
  | .ragged _ flat, v => v ∈ flat

/-- No number is the break value once the start index has been subtracted: every element has one part. -/
def SinglePart (c : Conn) (start : Int) (brk : Option Int) : Prop :=
  ∀ b, brk = some b → ∀ v, Mentions c v → v - start ≠ b

/-- The number of nodes of each element. -/
def nodeCounts : Conn → List Nat
  | .rows rs => rs.map List.length
  | .ragged counts _ => counts

/-- `kept` lists, in their old order and each once, exactly the nodes with a number that is mentioned. -/
def KeepsUsed {α : Type _} (nodes : List α) (start : Int) (c : Conn) (kept : List α) : Prop :=
  ∃ numbers : List Int, numbers.Pairwise (· < ·) ∧ (∀ v, v ∈ numbers ↔ Mentions c v)
    ∧ takeInts nodes (numbers.map (· - start)) = .ok kept

/-- The numbers mentioned are exactly those of the nodes. -/
def UsesAll {α : Type _} (nodes : List α) (start : Int) (c : Conn) : Prop :=
  ∀ v, Mentions c v ↔ start ≤ v ∧ v < start + nodes.length

end Ocgis.Spec
