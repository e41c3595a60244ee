import Verif.Model.DimMap

/-! Vocabulary for the statements about dimension maps: what the getters report, which calls set which key, which
maps can pass through a dictionary. -/

namespace Ocgis.Props
open Ocgis Ocgis.DimMap

/-- Everything the getters report about one key. -/
structure Reading where
  var : Option String
  bounds : Option String
  dimension : List String
  attrs : Attrs

/-- A call that sets the entry `k`. -/
def Sets (k : String) : Op → Prop
  | .setVariable j _ _ => j = k
  | .setBounds j _ => j = k
  | .setCrs _ => k = "crs"
  | .setMask _ _ _ => k = "spatial_mask"
  | _ => False

/-- The getters report `r` about the key `k`. -/
def Reports (s : Store) (k : String) (r : Reading) : Prop :=
  (getVariable s k).1 = .ok r.var ∧ (getBounds s k).1 = .ok r.bounds
  ∧ (getDimension s k).1 = .ok r.dimension ∧ (getAttrs s k).1 = .ok r.attrs

/-- What an entry says, absent elements taken as their defaults. -/
def readingOf (e : Entry) : Reading :=
  { var := e.var.getD none, bounds := e.bounds.getD none, dimension := e.dimension.getD [],
    attrs := e.attrs.getD noAttrs }

/-- Same reading and same section. -/
def SameEntry (e e' : Entry) : Prop := readingOf e = readingOf e' ∧ e.section_ = e'.section_

/-- The dimension names `set_variable` should record: the given ones; otherwise, for a variable object that is
not declared dimensionless, its only dimension or the one at the given position; otherwise none. -/
inductive RecordsDimension (v : VarArg) (a : SetArgs) : List String → Prop
  | given (d) : a.dimension = some d → RecordsDimension v a d
  | name : a.dimension = none → v.obj = none → RecordsDimension v a []
  | scalar (o) : a.dimension = none → v.obj = some o → o.dims = [] → RecordsDimension v a []
  | dimensionless (o) : a.dimension = none → v.obj = some o → a.dimless = true → RecordsDimension v a []
  | only (o d) : a.dimension = none → v.obj = some o → a.dimless = false → o.dims = [d] → RecordsDimension v a [d]
  | position (o d p) : a.dimension = none → v.obj = some o → a.dimless = false → 1 < o.dims.length →
      a.pos = some p → o.dims[p]? = some d → RecordsDimension v a [d]

/-- An entry that was set, or one that was read but holds nothing. -/
def EntryOk (e : Entry) : Prop :=
  (∃ n b d a, e.var = some (some n) ∧ e.bounds = some b ∧ e.dimension = some d ∧ e.attrs = some a)
  ∨ (e.var = some none ∧ readingOf e = ⟨none, none, [], noAttrs⟩ ∧ e.section_ = none)

/-- A store that its dictionary can represent: no topology, abstraction or isomorphism flag, a registered
driver, every entry set by a setter or merely read through `get_variable` first, and a spatial mask without
attributes of its own. -/
structure Importable (known : String → Bool) (s : Store) : Prop where
  topology : s.topology = false
  abstraction : s.abstraction = none
  isomorphic : s.isomorphic = none
  driver : ∀ d, s.driver = some d → known d = true
  coords : ∀ k ∈ coordKeys, ∀ e, s.entries k = some e → EntryOk e
  crs : ∀ e, s.entries "crs" = some e → ∃ v, e = { var := some v }
  mask : ∀ e, s.entries "spatial_mask" = some e →
    e = { var := some none } ∨ ∃ v, e = { var := some v, attrs := some (defaultAttrs "spatial_mask") }

/-- Two maps are indistinguishable by the getters and hold the same sections. -/
structure SameStore (s t : Store) : Prop where
  coords : ∀ k ∈ coordKeys, SameEntry (s.entry k) (t.entry k)
  crs : (getCrs s).1 = (getCrs t).1
  mask : (getMask s).1 = (getMask t).1
  driver : getDriver s = getDriver t
  abstraction : s.abstraction = t.abstraction
  isomorphic : s.isomorphic = t.isomorphic

mutual
/-- Every store in the tree is importable. -/
def AllImportable (known : String → Bool) : DMap → Prop
  | .mk s gs => Importable known s ∧ AllGroupsImportable known gs
def AllGroupsImportable (known : String → Bool) : List (String × DMap) → Prop
  | [] => True
  | (_, m) :: rest => AllImportable known m ∧ AllGroupsImportable known rest
end

mutual
/-- Same readings everywhere in the tree, same group names. -/
def SameMap : DMap → DMap → Prop
  | .mk s gs, .mk t hs => SameStore s t ∧ SameGroups gs hs
def SameGroups : List (String × DMap) → List (String × DMap) → Prop
  | [], [] => True
  | (n, a) :: as, (m, b) :: bs => n = m ∧ SameMap a b ∧ SameGroups as bs
  | _, _ => False
end

/-- Calls after which a map can still be exported and imported. -/
def KeepsImportable : Op → Prop
  | .getVariable k => k ∈ coordKeys
  | .getCrs => True
  | .getMask => True
  | .setVariable _ _ _ => True
  | .setBounds k _ => k ∈ coordKeys
  | .setCrs _ => True
  | .setDriver _ => True
  | .setMask _ va a => va = noAttrs ∧ a = noAttrs
  | _ => False

/-- Calls that succeed. -/
def Succeeds (known : String → Bool) (s : Store) : Op → Prop
  | .setVariable k v a => (setVariable s k v a).1 = .ok ()
  | .setBounds k b => (setBounds s k b).1 = .ok ()
  | .setDriver d => known d = true
  | _ => True

/-- Every call of the history succeeds. -/
def AllSucceed (known : String → Bool) : Store → List Op → Prop
  | _, [] => True
  | s, op :: ops => Succeeds known s op ∧ AllSucceed known (step known s op) ops

end Ocgis.Props
