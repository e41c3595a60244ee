import Verif.Model.Records

/-! Vocabulary for the statements about records of geometries. -/

namespace Ocgis.Spec
open Ocgis Ocgis.Records

/-- Two values of the same kind, neither missing. -/
def SameKind : Val → Val → Prop
  | .int _, .int _ => True
  | .float _, .float _ => True
  | .str _, .str _ => True
  | _, _ => False

/-- The value can be stored unchanged in a column of the type. -/
def FitsType : Ty → Val → Prop
  | .int, .int _ => True
  | .float, .float _ => True
  | .str _, .str _ => True
  | _, _ => False

/-- Property names occur once in each record. -/
def Dictionaries {G : Type} (records : List (Rec G)) : Prop := ∀ r ∈ records, (r.props.map Prod.fst).Nodup

/-- All records have the property names of the first, each with a value of the same kind; the identifier, if there is one, is an
integer. -/
structure Homogeneous {G : Type} (uid : String) (first : Rec G) (records : List (Rec G)) : Prop where
  dicts : Dictionaries records
  names : ∀ r ∈ records, r.props.map Prod.fst = first.props.map Prod.fst
  kinds : ∀ r ∈ records, ∀ k v w, (k, v) ∈ first.props → (k, w) ∈ r.props → SameKind v w
  ids : ∀ r ∈ records, ∀ v, (uid, v) ∈ r.props → ∃ i, v = .int i

end Ocgis.Spec
