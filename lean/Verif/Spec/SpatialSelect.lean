import Verif.Model.SpatialSelect
import Verif.Spec.Coords
/-!
# What selecting and decomposing mean
-/
namespace Ocgis.Spec
open Ocgis.Select (Box Jitter)

/-- The two closed boxes have a point in common. -/
def Overlap (a b : Box) : Prop := a.minx ≤ b.maxx ∧ b.minx ≤ a.maxx ∧ a.miny ≤ b.maxy ∧ b.miny ≤ a.maxy

/-- What is assumed of the exact test: it only selects cells that overlap the bounds of some part of the geometry. -/
def ExactTest (parts : List Box) (selects : Box → Bool) : Prop := ∀ c, selects c = true → ∃ p ∈ parts, Overlap p c

/-- A point of the closed box. -/
def Inside (b : Box) (x y : Rat) : Prop := b.minx ≤ x ∧ x ≤ b.maxx ∧ b.miny ≤ y ∧ y ≤ b.maxy

/-- A point of the open box. -/
def StrictlyInside (b : Box) (x y : Rat) : Prop := b.minx < x ∧ x < b.maxx ∧ b.miny < y ∧ y < b.maxy

/-- Some cell centre has the longitude of a vertical side and the latitude of a horizontal side of the box. -/
def CentreOnCorner (x y : List (List Rat)) (b : Box) : Prop :=
  ∃ (i j : Nat) (rx ry : List Rat) (vx vy : Rat), x[i]? = some rx ∧ y[i]? = some ry ∧ rx[j]? = some vx ∧ ry[j]? = some vy ∧
    (vx = b.minx ∨ vx = b.maxx) ∧ (vy = b.miny ∨ vy = b.maxy)

/-- The jittered box. -/
def jittered (b : Box) (j : Jitter) : Box := ⟨b.minx + j.j2, b.miny + j.j0, b.maxx + j.j3, b.maxy + j.j1⟩

end Ocgis.Spec
