import Verif.Model.GeomWrap

/-! Vocabulary for the statements about wrapping geometries. -/

namespace Ocgis.Spec
open Ocgis Ocgis.GeomWrap

/-- The edge from `a` to `b` is crossed by the ray from `p` to the east. -/
def crosses (a b p : Rat × Rat) : Bool :=
  (decide (a.2 ≤ p.2) != decide (b.2 ≤ p.2)) && decide (p.1 < a.1 + (p.2 - a.2) / (b.2 - a.2) * (b.1 - a.1))

/-- A point is inside a ring when the ray to the east crosses it an odd number of times.  (Of points on the ring, those on the west and
south sides count as inside.) -/
def inRing : List (Rat × Rat) → Rat × Rat → Bool
  | a :: b :: rest, p => crosses a b p != inRing (b :: rest) p
  | _, _ => false

/-- A point is in a polygon when it is inside the exterior and in no hole. -/
def polyCovers (q : Poly) (p : Rat × Rat) : Prop := inRing q.ring p = true ∧ ∀ h ∈ q.holes, inRing h p = false

def polysCover (qs : List Poly) (p : Rat × Rat) : Prop := ∃ q ∈ qs, polyCovers q p

/-- A point belongs to a geometry. -/
def covers (g : Geom) (p : Rat × Rat) : Prop :=
  match g with
  | .poly q => polysCover [q] p
  | .multi qs => polysCover qs p
  | .point c => p = c
  | .points cs => p ∈ cs
  | .other => False

/-- The polygons of a geometry. -/
def polysOf : Geom → List Poly
  | .poly q => [q]
  | .multi qs => qs
  | _ => []

/-- The ring of a polygon ends where it starts, and is not empty. -/
def ClosedRing (r : List (Rat × Rat)) : Prop := r ≠ [] ∧ r.head? = r.getLast?

/-- The result of cutting polygons with a box: its polygons are inside both, contain every point of the polygons that is inside the
box, have closed rings inside the box.  Lines and points, where polygons touch the box, may be there too. -/
structure CutOf (ps : List Poly) (b : Box) (pieces : List Piece) : Prop where
  inside : ∀ q, .poly q ∈ pieces → ∀ p, polyCovers q p → polysCover ps p
  onto : ∀ p : Rat × Rat, b.minx < p.1 → p.1 < b.maxx → b.miny < p.2 → p.2 < b.maxy → polysCover ps p → ∃ q, .poly q ∈ pieces ∧ polyCovers q p
  closed : ∀ q, .poly q ∈ pieces → ClosedRing q.ring
  within : ∀ q, .poly q ∈ pieces → ∀ c ∈ q.ring, b.minx ≤ c.1 ∧ c.1 ≤ b.maxx

/-- A polygon without holes, with a closed ring between two longitudes. -/
structure PlainPoly (lo hi : Rat) (q : Poly) : Prop where
  holes : q.holes = []
  closed : ClosedRing q.ring
  within : ∀ c ∈ q.ring, lo ≤ c.1 ∧ c.1 ≤ hi

/-- Cutting a geometry's polygons works as it should, and makes no holes. -/
def CutsWell (meet : Meet) (ps : List Poly) (b : Box) : Prop :=
  CutOf ps b (meet ps b) ∧ ∀ q, .poly q ∈ meet ps b → q.holes = []

/-- A polygon, or polygons, without holes, between two longitudes. -/
def PlainGeom (lo hi : Rat) (g : Geom) : Prop :=
  match g with
  | .poly q => PlainPoly lo hi q
  | .multi qs => qs ≠ [] ∧ ∀ q ∈ qs, PlainPoly lo hi q
  | _ => False

/-- A rectangle. -/
def rect (a b c d : Rat) : Poly := { ring := [(a, b), (c, b), (c, d), (a, d), (a, b)] }

/-- Cutting rectangles with a box; other polygons are forgotten.  (For examples.) -/
def rectMeet : Meet := fun ps b => ps.filterMap fun q =>
  match q.ring with
  | [(a, s), (c, _), (_, n), _, _] =>
    if max a b.minx < min c b.maxx ∧ max s b.miny < min n b.maxy then
      some (.poly (rect (max a b.minx) (max s b.miny) (min c b.maxx) (min n b.maxy)))
    else none
  | _ => none

/-- A point is in a box. -/
def inBox (b : Box) (p : Rat × Rat) : Prop := b.minx ≤ p.1 ∧ p.1 ≤ b.maxx ∧ b.miny ≤ p.2 ∧ p.2 ≤ b.maxy

/-- A point is in one of several boxes. -/
def inBoxes (bs : List Box) (p : Rat × Rat) : Prop := ∃ b ∈ bs, inBox b p

end Ocgis.Spec
