import Verif.Model.GeomCabinet
import Verif.Spec.Indexing
import Verif.Proofs.Indexing
import Verif.Proofs.MapM
import Verif.Proofs.Records
import Verif.Props.Records
import Mathlib.Data.List.Perm.Basic

/-! Vocabulary for the statements about selecting geometries from a file. -/

namespace Ocgis.Spec
open Ocgis Ocgis.Records Ocgis.Cabinet

/-- The name of the identifier. -/
def idName {G : Type} (q : Query G) : String := q.uid.getD "UGID"

/-- A feature's identifier: its attribute of that name, or the file's own numbering if there is no such attribute. -/
def idOf {G : Type} (name : String) (f : Feature G) : Int :=
  match f.props.lookup name with
  | some (.int i) => i
  | _ => f.fid

/-- Every feature has the file's attributes, each once; identifiers are integers; a requested identifier attribute exists. -/
structure GoodSource {G : Type} (src : Source G) (q : Query G) : Prop where
  nodup : (src.fields.map Prod.fst).Nodup
  names : ∀ f ∈ src.features, f.props.map Prod.fst = src.fields.map Prod.fst
  ints : ∀ f ∈ src.features, ∀ v, (idName q, v) ∈ f.props → ∃ i, v = .int i
  exists_ : ∀ u, q.uid = some u → u ∈ src.fields.map Prod.fst

/-- The feature has a selected identifier and satisfies the condition, if any. -/
def meets {G : Type} (q : Query G) (f : Feature G) : Bool :=
  (match q.selectUid with
    | none => true
    | some ids => ids.contains (idOf (idName q) f)) &&
  (match q.sqlWhere with
    | none => true
    | some p => p f)

/-- The record has the feature's geometry, attributes and identifier. -/
structure RecordOf {G : Type} (name : String) (f : Feature G) (r : Rec G) : Prop where
  geom : r.geom = f.geom
  props : ∀ k v, k ≠ name → ((k, v) ∈ r.props ↔ (k, v) ∈ f.props)
  id : ∀ v, (name, v) ∈ r.props ↔ v = .int (idOf name f)
  once : (r.props.map Prod.fst).Nodup

/-- The outcome of iterating when the features `wanted` are asked for: an error if there are none, otherwise their records in
that order. -/
def Yields {G : Type} (name : String) (wanted : List (Feature G)) (out : Res (String × List (Rec G))) : Prop :=
  (wanted = [] → out = .error .valueError) ∧
  (wanted ≠ [] → ∃ rs, out = .ok (name, rs) ∧ rs.length = wanted.length ∧
    ∀ (i : Nat) f r, wanted[i]? = some f → rs[i]? = some r → RecordOf name f r)

/-- The features are numbered from zero in file order, as in a shapefile. -/
def Numbered {G : Type} (src : Source G) : Prop := ∀ (i : Nat) f, src.features[i]? = some f → f.fid = i

/-- The positions for which slicing a file works: a valid position; a slice with a start that is not negative and not after
the stop; valid positions with a jump (not in a file geodatabase) or consecutive ones. -/
def FileIndex {G : Type} (src : Source G) : RawIndex → Prop
  | .int i => 0 ≤ i ∧ i < (src.features.length : Int)
  | .slice s => ∃ a, s.start = some a ∧ 0 ≤ a ∧ ∀ b, s.stop = some b → a ≤ b
  | .ints xs => (∀ i ∈ xs, 0 ≤ i ∧ i < (src.features.length : Int)) ∧
      ((src.geodatabase = false ∧ Numbered src ∧ HasJump xs) ∨ IsRun xs)
  | _ => False

/-- A file with four features, identified by their numbers. -/
def fourFeatures : Source Nat :=
  ⟨[("A", .int)], [⟨0, 7, [("A", .int 1)]⟩, ⟨1, 8, [("A", .int 2)]⟩, ⟨2, 9, [("A", .int 3)]⟩, ⟨3, 10, [("A", .int 4)]⟩], false⟩

/-- The geometries and identifiers iterating yields. -/
def yielded (src : Source Nat) (q : Query Nat) : Option (List (Nat × Option Val)) :=
  (iterGeoms src q).toOption.map fun p => p.2.map fun r => (r.geom, r.props.lookup p.1)

end Ocgis.Spec
