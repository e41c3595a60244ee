import Verif.Model.FieldSlice
import Verif.Spec.DictSlice
import Mathlib.Data.List.Forall2

/-! What a slice by standard names should be. -/

namespace Ocgis.Spec
open Ocgis.DictSlice Ocgis.FieldSlice

/-- The dimension map gives a dimension a standard name: it is listed for it, or it has the name of its variable and none is listed.
Geometries have a standard name if they have one dimension. -/
def GivesName (dmap : Assoc DmEntry) (std dim : String) : Prop :=
  (std ∈ ["realization", "time", "level", "y", "x"] ∨ std = "geom" ∧ ∃ e x, find dmap "geom" = some e ∧ e.dims = [x]) ∧
  ∃ e v, find dmap std = some e ∧ e.var = some v ∧ (dim ∈ e.dims ∨ e.dims = [] ∧ dim = v)

/-- The name of a dimension in slices: the standard one, or its own if it has no standard one. -/
def SliceName {α : Type} (f : SField α) (dim std : String) : Prop :=
  GivesName f.dmap std dim ∨ (std = dim ∧ ∀ k, ¬ GivesName f.dmap k dim)

/-- The names of the dimensions of a field. -/
def dimensionNames {α : Type} (f : SField α) : List String := f.dims.map (·.1)

/-- Every dimension has one standard name at most, no two have the same, and none is called as another is. -/
structure Unambiguous {α : Type} (f : SField α) : Prop where
  one : ∀ n k k', n ∈ dimensionNames f → GivesName f.dmap k n → GivesName f.dmap k' n → k = k'
  different : ∀ n n' k, n ∈ dimensionNames f → n' ∈ dimensionNames f → GivesName f.dmap k n → GivesName f.dmap k n' → n = n'
  free : ∀ n k, n ∈ dimensionNames f → k ∈ dimensionNames f → GivesName f.dmap k n → k = n

/-- A field in order: dimensions are different objects with the names they are known by, and variables have different dimensions among
them. -/
structure SoundField {α : Type} (f : SField α) : Prop where
  keys : (dimensionNames f).Nodup
  objects : (f.dims.map (·.2)).Nodup
  names : ∀ n i, (n, i) ∈ f.dims → (f.objs i).name = n
  vars : ∀ k v, (k, v) ∈ f.vars → v.names.Nodup ∧ ∀ n ∈ v.names, n ∈ dimensionNames f

/-- The field as a collection of dimensions and variables. -/
def asColl {α : Type} (f : SField α) : Coll α := ⟨f.dims.map fun ni => (ni.1, f.objs ni.2), f.vars⟩

/-- The same slices by the own names of the dimensions. -/
def SameSlices {α : Type} (f : SField α) (d d' : Assoc RawIndex) : Prop :=
  List.Forall₂ (fun p q => p.2 = q.2 ∧ q.1 ∈ dimensionNames f ∧ SliceName f q.1 p.1) d d'

/-- Nothing of the field has changed but that the dimension map lists the name of a variable where it listed no dimension. -/
structure OnlyListed {α : Type} (f f' : SField α) : Prop where
  dims : f'.dims = f.dims
  vars : f'.vars = f.vars
  data : f'.data = f.data
  objs : ∀ n i, (n, i) ∈ f.dims → f'.objs i = f.objs i
  dmap : ∀ k e, find f.dmap k = some e → ∃ e', find f'.dmap k = some e' ∧ e'.var = e.var ∧
    (e'.dims = e.dims ∨ (e.dims = [] ∧ ∃ v, e.var = some v ∧ e'.dims = [v]))
  absent : ∀ k, find f.dmap k = none → find f'.dmap k = none

/-- An index that a distributed slice understands, for a dimension of the length: a position, a range that is not beside the dimension,
positions that are consecutive or make a jump, truth values of which one is true, or everything. -/
def PlainIndex (n : Nat) : RawIndex → Prop
  | .int i => 0 ≤ i ∧ i < n
  | .slice s => s = PySlice.all ∨ ∃ a b : Int, s = ⟨some a, some b⟩ ∧ 0 ≤ a ∧ a ≤ b ∧ b ≤ n ∧ a < n ∧ 0 < b
  | .ints xs => (∀ x ∈ xs, 0 ≤ x ∧ x < (n : Int)) ∧ (HasJump xs ∨ IsRun xs)
  | .bools bs => bs.length = n ∧ true ∈ bs
  | .none => True

/-- The variables fit the dimensions of the field. -/
def VariablesFit {α : Type} (f : SField α) : Prop :=
  ∀ k v, (k, v) ∈ f.vars → v.names.length = v.shape.length ∧
    ∀ (j : Nat) n, v.names[j]? = some n → ∃ i, (n, i) ∈ f.dims ∧ (f.objs i).len = v.shape.getD j 0

end Ocgis.Spec
