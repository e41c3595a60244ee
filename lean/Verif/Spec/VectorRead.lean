import Verif.Model.VectorRead
import Verif.Spec.GeomCabinet
import Verif.Spec.SourceRead

/-! Vocabulary for the statements about fields of vector files. -/

namespace Ocgis.Spec
open Ocgis Ocgis.Records Ocgis.Cabinet Ocgis.VectorRead

/-- A value of a type of the file, or a null. -/
def FitsOrNull : Ty → Val → Prop
  | _, .null => True
  | .int, .int _ => True
  | .float, .float _ => True
  | .str _, .str _ => True
  | _, _ => False

/-- Two types of the same kind; widths do not matter. -/
def SameType : Ty → Ty → Prop
  | .int, .int => True
  | .float, .float => True
  | .str _, .str _ => True
  | _, _ => False

/-- What a caller sees of a feature's attribute in a column of a type: the value.  Of a null: nothing that is defined in a column of
integers, where it is masked, not-a-number in a column of floating point numbers, `None` in a column of text. -/
def shownValue {G : Type} : Ty → Val → Cell G
  | _, .int i => .int i
  | _, .float q => .float q
  | _, .str s => .str s
  | .int, .null => .int 0
  | .float, .null => .nan
  | .str _, .null => .none

/-- What a caller sees of a feature in a variable. -/
def shown {G : Type} (v : FVar G) (f : Feature G) : Cell G :=
  match v.kind with
  | .geom => .geom f.geom
  | .data t => shownValue t ((f.props.lookup v.name).getD .null)

/-- A feature's attribute is missing, in a column of integers. -/
def missing {G : Type} (v : FVar G) (f : Feature G) : Bool :=
  match v.kind with
  | .data .int => decide ((f.props.lookup v.name).getD .null = .null)
  | _ => false

/-- The features at positions of the file. -/
def featuresAt {G : Type} (src : Source G) (zs : List Int) : List (Feature G) := zs.filterMap fun z => src.features[z.toNat]?

/-- A file that can be read by position: every feature has the attributes of the file, with values of their types or nulls; the
features are numbered from zero; it is not a file geodatabase; an attribute `UGID` is never null. -/
structure GoodFile {G : Type} (src : Source G) : Prop where
  good : GoodSource src {}
  fits : ∀ f ∈ src.features, ∀ k x, (k, x) ∈ f.props → ∀ t, (k, t) ∈ src.fields → FitsOrNull t x
  numbered : Numbered src
  plain : src.geodatabase = false

/-- A variable of the file: the geometry variable with its usual name, or an attribute with its type. -/
def OfFile {G : Type} (src : Source G) (v : FVar G) : Prop :=
  (v.kind = .geom ∧ v.name = "ocgis_geom") ∨ ∃ t u, v.kind = .data t ∧ (v.name, u) ∈ src.fields ∧ SameType t u

/-- A field as it is when the file is opened: nothing is read yet, names are unique, and the dimension refers to positions of the file in
increasing order. -/
structure Opened {G : Type} (src : Source G) (f : VField G) : Prop where
  refers : RefersTo f.dim src.features.length
  names : (f.vars.map FVar.name).Nodup
  ofFile : ∀ v ∈ f.vars, OfFile src v
  unread : ∀ v ∈ f.vars, v.value = none ∧ v.mask = none ∧ v.initialized = false

/-- The positions left after the slices of a history. -/
def positionsAfter {G : Type} : List Int → List (Act G) → List Int
  | zs, [] => zs
  | zs, .slice idx :: rest =>
    match pick idx zs with
    | .ok ys => positionsAfter ys rest
    | .error _ => positionsAfter zs rest
  | zs, _ :: rest => positionsAfter zs rest

/-- A history of slices that keep something in order, and of reading values and masks of variables of the field. -/
def Reading {G : Type} (names : List String) : Nat → List (Act G) → Prop
  | _, [] => True
  | n, .slice idx :: rest => Orderly n idx ∧ Reading names (axisKept idx n).length rest
  | n, .get k :: rest => k ∈ names ∧ Reading names n rest
  | n, .getMask k :: rest => k ∈ names ∧ Reading names n rest
  | _, _ :: _ => False

/-- A mask that masks exactly the marked elements; no mask stands for nothing being masked. -/
def Masks (m : Option (List Bool)) (marks : List Bool) : Prop := m = some marks ∨ (m = none ∧ true ∉ marks)

/-- The last value set for a variable in a history, or the one given. -/
def lastSet {G : Type} (k : String) : List (Cell G) → List (Act G) → List (Cell G)
  | a, [] => a
  | a, .set j b :: rest => lastSet k (if j = k then b else a) rest
  | a, _ :: rest => lastSet k a rest

/-- The last mask set for a variable in a history, or the one given. -/
def lastMask {G : Type} (k : String) : Option (List Bool) → List (Act G) → Option (List Bool)
  | m, [] => m
  | m, .setMask j b :: rest => lastMask k (if j = k then some b else m) rest
  | m, _ :: rest => lastMask k m rest

/-- A history of reading and setting values and masks of variables of the field, without slices and removals. -/
def Setting {G : Type} (names : List String) : List (Act G) → Prop
  | [] => True
  | .get k :: rest => k ∈ names ∧ Setting names rest
  | .getMask k :: rest => k ∈ names ∧ Setting names rest
  | .set k _ :: rest => k ∈ names ∧ Setting names rest
  | .setMask k _ :: rest => k ∈ names ∧ Setting names rest
  | _ :: _ => False

/-- The kind of a column, by how the name of its type begins. -/
def kindOfType (ftype : List Char) : Option Ty :=
  if "int".toList <+: ftype then some .int
  else if "str".toList <+: ftype then some (.str 0)
  else if "float".toList <+: ftype then some .float
  else none

/-- The kind of a value: the type of column it needs. -/
def kindOfVal : Val → Option Ty
  | .int _ => some .int
  | .float _ => some .float
  | .str _ => some (.str 0)
  | .null => none

/-- A file with three features: names, numbers, measurements, each with a null somewhere. -/
def threeTowns : Source Nat :=
  ⟨[("POP", .int), ("HEIGHT", .float), ("NAME", .str 10)],
   [⟨0, 100, [("POP", .int 5), ("HEIGHT", .float (1 / 2)), ("NAME", .str "a")]⟩,
    ⟨1, 101, [("POP", .null), ("HEIGHT", .float 7), ("NAME", .null)]⟩,
    ⟨2, 102, [("POP", .int 8), ("HEIGHT", .null), ("NAME", .str "c")]⟩], false⟩

/-- Its field. -/
def towns : VField Nat :=
  { dim := ⟨"ocgis_ngeom", some 3, some 3, true, false, none, none, some (.bounds 0 3)⟩
    vars := [{ name := "POP", kind := .data .int }, { name := "HEIGHT", kind := .data .float }, { name := "NAME", kind := .data (.str 0) },
             { name := "ocgis_geom", kind := .geom }] }

/-- The value and the mask of a variable at the end of a history. -/
def atEnd (src : Source Nat) (f : VField Nat) (acts : List (Act Nat)) (k : String) :
    Option (List (Cell Nat) × Option (List Bool)) :=
  match run src f acts with
  | .error _ => none
  | .ok f =>
    match getValue src k f with
    | .error _ => none
    | .ok (f, a) =>
      match getMask src k f with
      | .error _ => none
      | .ok (_, m) => some (a, m)

end Ocgis.Spec
