import Verif.Model.ShpProcess
/-!
# What adding identifiers to a shapefile should do
-/
namespace Ocgis.Spec
open ShpProcess

/-- Feature `g` is feature `f` with identifier `i`: other properties are the same, and the geometry is the same if it was valid and the
cleaned one otherwise. -/
def IdentifiedAs {γ : Type} (valid : γ → Bool) (clean : γ → γ) (identifier : String) (f g : Feature γ) (i : Int) : Prop :=
  getProp g.props identifier = some (.int i) ∧ (∀ k, k ≠ identifier → getProp g.props k = getProp f.props k) ∧
    (valid f.geom = true → g.geom = f.geom) ∧ (valid f.geom = false → g.geom = clean f.geom)

/-- The identifiers in a file differ from each other. -/
def IdentifiersDiffer {γ : Type} (identifier : String) (s : Shp γ) : Prop :=
  (s.features.map fun f => getProp f.props identifier).Nodup

/-- The text before the point of a number: the integer next to it on the side of zero. -/
def CutTo (q : Rat) (i : Int) : Prop := (0 ≤ q → i ≤ q ∧ q < i + 1) ∧ (q ≤ 0 → q ≤ i ∧ i < q + 1)

/-- The integer that a property gives. -/
def IntegerOf (parse : String → Option Int) (v : Val) (i : Int) : Prop :=
  v = .int i ∨ (∃ q, v = .real q ∧ CutTo q i) ∨ ∃ s, v = .text s ∧ parse s = some i

end Ocgis.Spec
