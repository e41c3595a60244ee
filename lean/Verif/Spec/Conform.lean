import Verif.Model.Conform
/-!
# What a value with its units stands for
-/
namespace Ocgis.Spec
open Ocgis.Conform

/-- The quantity that a number in some units stands for. -/
def NumberIs (parse : String → Option U) (s : String) (n q : Rat) : Prop := ∃ u, parse s = some u ∧ q = u.scale * n + u.offset

/-- The quantity that an element of a variable stands for: a date itself, or a number in the units of the variable. -/
def QuantityIs {κ : Type} (parse : String → Option U) (e : Elem κ) (k : κ) (q : Rat) : Prop :=
  (∃ f c, e.data = some (.dates f c) ∧ q = f k) ∨ ∃ f s, e.data = some (.num f) ∧ e.units = some s ∧ NumberIs parse s (f k) q

/-- No unit has the scale zero. -/
def SoundUnits (parse : String → Option U) : Prop := ∀ s u, parse s = some u → u.scale ≠ 0

/-- Units of the same kind. -/
def SameKindOfUnit (parse : String → Option U) (s t : String) : Prop := ∃ u w, parse s = some u ∧ parse t = some w ∧ u.kind = w.kind

/-- An element is masked. -/
def HiddenAt {κ : Type} (e : Elem κ) (k : κ) : Prop := ∃ m, e.mask = some m ∧ m k = true

/-- Numbers that were kept for dates are right. -/
def CacheRight {κ : Type} (parse : String → Option U) (e : Elem κ) : Prop :=
  ∀ f c, e.data = some (.dates f (some c)) → ∃ s, e.units = some s ∧ ∀ k, NumberIs parse s (c k) (f k)

/-- The quantity that an element of the bounds of a variable with some units stands for, whether they were read or are still in the file. -/
def BoundsShow (parse : String → Option U) (s : String) (b : Elem (Nat × Nat)) (k : Nat × Nat) (q : Rat) : Prop :=
  (∃ f c, b.data = some (.dates f c) ∧ q = f k) ∨ (∃ f, b.data = some (.num f) ∧ NumberIs parse s (f k) q) ∨
    b.data = none ∧ NumberIs parse s (b.file k) q

/-- Bounds that can be converted together with a variable with units `s`: not of an integer data type, not to be converted on their own
when they are read, and numbers kept for dates are there and are right. -/
def BoundsReady (parse : String → Option U) (s : String) (b : Elem (Nat × Nat)) : Prop :=
  b.integer ≠ some true ∧ (b.data = none → b.target = none) ∧
    ∀ f c, b.data = some (.dates f c) → ∃ n, c = some n ∧ ∀ k, NumberIs parse s (n k) (f k)

end Ocgis.Spec
