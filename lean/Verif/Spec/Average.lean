import Verif.Model.Average
/-!
# What is said about unions and spatial averages
-/
namespace Ocgis.Average
open Ocgis.Array

/-- Points of geometries: a union has the points of all its members, a geometry those of its parts, and no area is
negative. -/
structure Lawful {G P : Type} (S : Shapely G) (inside : G → P → Prop) : Prop where
  area_nonneg : ∀ g, 0 ≤ S.area g
  union : ∀ l p, inside (S.union l) p ↔ ∃ g ∈ l, inside g p
  parts : ∀ g p, inside g p ↔ ∃ q ∈ S.parts g, inside q p

/-- All ways to give each dimension an index, by name. -/
def places : List Dim → List (String → Nat)
  | [] => [fun _ => 0]
  | d :: ds => (List.range d.size).flatMap fun i => (places ds).map fun p n => if n = d.name then i else p n

/-- The multi-index of a place in an array with these dimensions. -/
def spot (ds : List Dim) (p : String → Nat) : List Nat := ds.map fun d => p d.name

/-- The place in the data: that of the geometry `p` along its dimensions, `t` along the others. -/
def along (ds : List Dim) (p t : String → Nat) (n : String) : Nat := if n ∈ ds.map (·.name) then p n else t n

/-- An index that exists along each of the dimensions. -/
def Within (ds : List Dim) (t : String → Nat) : Prop := ∀ d ∈ ds, t d.name < d.size

/-- The mean with weights of a list of pairs (weight, value). -/
def wmean (l : List (Rat × Rat)) : Rat := (l.map fun a => a.1 * a.2).sum / (l.map (·.1)).sum

/-- A variable's element, `none` if it is masked. -/
def element (v : Var) (i : List Nat) : Option Rat :=
  match v.mask with
  | none => some (v.value.elem i)
  | some m => if m i then none else some (v.value.elem i)

/-- The places of geometries that are not masked, where the data are not masked either at `t`. -/
def valid {G : Type} (g : GVar G) (v : Var) (t : String → Nat) : List (String → Nat) :=
  (places g.dims).filter fun p =>
    !g.masked (spot g.dims p) && (element v (spot v.dims (along g.dims p t))).isSome

/-- The documented weight of a geometry: its area, and one if that is zero. -/
def weightOf {G : Type} (S : Shapely G) (x : G) : Rat := if S.area x = 0 then 1 else S.area x

/-- Weights and values of the valid places. -/
def weighted {G : Type} (S : Shapely G) (g : GVar G) (v : Var) (t : String → Nat) : List (Rat × Rat) :=
  (valid g v t).map fun p => (weightOf S (g.geom (spot g.dims p)), v.value.elem (spot v.dims (along g.dims p t)))

/-- Areas and values of the valid places. -/
def weightedByArea {G : Type} (S : Shapely G) (g : GVar G) (v : Var) (t : String → Nat) : List (Rat × Rat) :=
  (valid g v t).map fun p => (S.area (g.geom (spot g.dims p)), v.value.elem (spot v.dims (along g.dims p t)))

/-- The dimensions of the data that are not dimensions of the geometries. -/
def others {G : Type} (g : GVar G) (v : Var) : List Dim := v.dims.filter fun d => decide (d.name ∉ g.dims.map (·.name))

/-- A collection of variables around geometries: dimensions have different names in a variable, dimensions of one name are
one dimension, and values have the lengths of their dimensions. -/
structure Fits {G : Type} (g : GVar G) (v : Var) : Prop where
  geom_names : (g.dims.map (·.name)).Nodup
  names : (v.dims.map (·.name)).Nodup
  same : ∀ d ∈ v.dims, ∀ e ∈ g.dims, d.name = e.name → d = e
  shape : v.value.shape = v.dims.map (·.size)

end Ocgis.Average
