import Verif.Model.SpatialSubset

namespace Ocgis.Spec
open Ocgis Ocgis.SpatialSubset

/-- Coordinates and arithmetic as the code expects them: nothing is negative and above 180 at the same time, adding
360 to a negative coordinate of the array gives one that is not negative, and subtracting it again gives the
coordinate back.  (Exact for coordinates from −360 up; rounding may break the last part.) -/
structure Plain {α : Type} (N : Num α) (xs : List α) : Prop where
  apart : ∀ x, N.above180 x = true → N.negative x = false
  lifts : ∀ x ∈ xs, N.negative x = true → N.negative (N.plus360 x) = false
  undone : ∀ x ∈ xs, N.negative x = true → N.minus360 (N.plus360 x) = x

/-- Rational coordinates with exact arithmetic. -/
def exact : Num Rat :=
  { plus360 := fun x => x + 360, minus360 := fun x => x - 360,
    negative := fun x => decide (x < 0), above180 := fun x => decide (x > 180) }

/-- Rational coordinates where the sum is rounded down to a multiple of 2⁻⁴⁴, the spacing of double precision
numbers between 256 and 512. -/
def doubles : Num Rat :=
  { exact with plus360 := fun x => (((x + 360) * 17592186044416).floor : Rat) / 17592186044416 }

/-- A request that succeeds with the given slice. -/
def finds (start stop : Nat) : Request Rat :=
  { geometries := 1, optimized := false, operation := "intersects", prepare := .ok (), found := fun _ => .ok (start, stop) }

/-- A request whose geometry meets nothing. -/
def misses : Request Rat :=
  { geometries := 1, optimized := false, operation := "intersects", prepare := .ok (), found := fun _ => .error .emptySubset }

/-- A spherical field with coordinates on both sides. -/
def sample : Field Rat := { crs := .spherical, x := [-10, 20, 200] }

end Ocgis.Spec
