import Verif.Model.GeomPrep
import Verif.Spec.SpatialSelect
import Mathlib.Data.List.Forall2
/-! What polygons cover, and what is trusted of Shapely. -/
namespace Ocgis.Spec
open Ocgis.GeomPrep Ocgis.Select

/-- A node lies in a box. -/
def NodeInside (b : Box) (c : Coord) : Prop := Inside b (c.getD 0 0) (c.getD 1 0)

/-- The polygon is a part of the intersection. -/
def PieceOf {P : Type} (c : Cut P) (q : P) : Prop := c = .polygon q ∨ ∃ ps, c = .collection ps ∧ some q ∈ ps

/-- What is trusted of Shapely, where `covers p x y` says that the point is in the polygon: the bounds contain the polygon; an intersection
contains the common points, unless parts of it are no polygons; a hole of an intersection is one of the polygon that lies in the box; a hole has
nodes on the left and on the right of its centroid. -/
structure GeometryLaws {P : Type} (E : Engine P) (covers : P → Rat → Rat → Prop) : Prop where
  bounds : ∀ p x y, covers p x y → Inside (E.bounds p) x y
  apart : ∀ p b, E.cut p b = .nothing → ∀ x y, ¬ (covers p x y ∧ Inside b x y)
  within : ∀ p b q, PieceOf (E.cut p b) q → ∀ x y, covers q x y → covers p x y ∧ Inside b x y
  whole : ∀ p b q, E.cut p b = .polygon q → ∀ x y, covers p x y → Inside b x y → covers q x y
  wholes : ∀ p b ps, E.cut p b = .collection ps → none ∉ ps → ∀ x y, covers p x y → Inside b x y → ∃ q, some q ∈ ps ∧ covers q x y
  holes : ∀ p b q, PieceOf (E.cut p b) q → ∀ r ∈ E.interiors q, ∃ r' ∈ E.interiors p, ∀ c ∈ r', NodeInside b c
  middle : ∀ p, ∀ r ∈ E.interiors p, ∃ c ∈ r, ∃ c' ∈ r, c.getD 0 0 < (E.centroid r).1 ∧ (E.centroid r).1 < c'.getD 0 0

/-- The polygons cover the same points. -/
def SameArea {P : Type} (covers : P → Rat → Rat → Prop) (ps qs : List P) : Prop :=
  ∀ x y, (∃ p ∈ ps, covers p x y) ↔ ∃ q ∈ qs, covers q x y

/-- The nodes written for a valid polygon: those of its exterior, counterclockwise, without the repeated one unless asked for. -/
def WrittenAs {P : Type} (E : Engine P) (repeatLast : Bool) (p : P) (nodes : List Coord) : Prop :=
  E.valid p = true → ∃ q, (E.ccw p = true → q = p) ∧ (E.ccw p = false → q = E.orient p) ∧
    nodes = if repeatLast then E.exterior q else (E.exterior q).dropLast

/-- The indices are those of the kept ones, in order. -/
structure KeptAre {β : Type} (kept : List Nat) (xs : List β) (keep : β → Prop) : Prop where
  increasing : kept.Pairwise (· < ·)
  inside : ∀ i ∈ kept, i < xs.length
  iff : ∀ (i : Nat) x, xs[i]? = some x → (i ∈ kept ↔ keep x)

end Ocgis.Spec
