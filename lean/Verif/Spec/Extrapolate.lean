import Verif.Model.Extrapolate
/-!
# What the properties of extrapolated bounds talk about
-/
namespace Ocgis.Spec

/-- The values `f 0, ..., f (k - 1)` never go down, or never go up. -/
def OneWay (k : Nat) (f : Nat → Rat) : Prop :=
  (∀ i, i + 1 < k → f i ≤ f (i + 1)) ∨ (∀ i, i + 1 < k → f (i + 1) ≤ f i)

/-- The mean step, with its sign, from the first to the last of `k` values. -/
def meanStep (k : Nat) (f : Nat → Rat) : Rat := (f (k - 1) - f 0) / ((k - 1 : Nat) : Rat)

/-- The edges between `k` centres: midpoints inside, and one mean step beyond the midpoints at the two ends. -/
def edgeOf (k : Nat) (f : Nat → Rat) (i : Nat) : Rat :=
  if i = 0 then (f 0 + f 1) / 2 - meanStep k f
  else if i = k then (f (k - 2) + f (k - 1)) / 2 + meanStep k f
  else (f (i - 1) + f i) / 2

end Ocgis.Spec
