import Verif.Model.ExtentGlobal
/-!
# What a global extent should be
-/
namespace Ocgis.Spec
open ExtentGlobal

/-- The least of some values: one of them, and none is less. -/
def LeastOf (P : Rat → Prop) (m : Rat) : Prop := P m ∧ ∀ q, P q → m ≤ q

/-- The greatest of some values: one of them, and none is greater. -/
def GreatestOf (P : Rat → Prop) (m : Rat) : Prop := P m ∧ ∀ q, P q → q ≤ m

/-- A value counts: it is among the cells, and is not masked if masks count. -/
def Counts (vectorized : Bool) (cells : List Cell) (q : Rat) : Prop := ∃ c ∈ cells, c.value = q ∧ (vectorized = false → c.masked = false)

/-- The extent of all parts together. -/
def IsExtentOf (vectorized : Bool) (parts : List Part) (e : Extent) : Prop :=
  ∃ x0 y0 x1 y1, e = { minx := some x0, miny := some y0, maxx := some x1, maxy := some y1 } ∧
    LeastOf (fun q => ∃ p ∈ parts, Counts vectorized p.xs q) x0 ∧ LeastOf (fun q => ∃ p ∈ parts, Counts vectorized p.ys q) y0 ∧
    GreatestOf (fun q => ∃ p ∈ parts, Counts vectorized p.xs q) x1 ∧ GreatestOf (fun q => ∃ p ∈ parts, Counts vectorized p.ys q) y1

/-- Some value counts in both directions. -/
def HasValues (vectorized : Bool) (p : Part) : Prop := (∃ q, Counts vectorized p.xs q) ∧ ∃ q, Counts vectorized p.ys q

end Ocgis.Spec
