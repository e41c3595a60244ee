import Verif.Model.RequestMeta

/-! Vocabulary for the statements about request datasets. -/

namespace Ocgis.Spec
open Ocgis Ocgis.RequestMeta

/-- The variables that a request is about: those asked for, which must all exist, or those that are found. -/
def About (req : Req) (found : List String) (m : Meta) (vs : List String) : Prop :=
  vs ≠ [] ∧ (∀ v ∈ vs, v ∈ m.map Prod.fst) ∧ (req.wanted = some vs ∨ (req.wanted = none ∧ found = vs))

/-- The metadata of a file: no two variables have the same name, and every variable is called by its name in the file. -/
def FileNames (m : Meta) : Prop := (m.map Prod.fst).Nodup ∧ ∀ k x, (k, x) ∈ m → x.name = k

/-- `n` is the name of the variable `k` of the file after `vs` are renamed to `ns`. -/
def Renamed (vs ns : List String) (k n : String) : Prop := (k, n) ∈ vs.zip ns ∨ (k ∉ vs ∧ n = k)

/-- The new names can be used: there is one for each variable, no name is used twice, and none is that of another variable. -/
def UsableNames (vs ns : List String) (m : Meta) : Prop :=
  vs.Nodup ∧ ns.Nodup ∧ ns.length = vs.length ∧ ∀ n ∈ ns, n ∈ m.map Prod.fst → n ∈ vs

/-- The units of a variable that conversions start from: those given, or those of the file. -/
def UnitsFrom (req : Req) (vs : List String) (m : Meta) (k : String) (u : Option String) : Prop :=
  (req.units = none ∧ u = (m.lookup k).bind VMeta.units) ∨ ∃ us u', req.units = some us ∧ (k, u') ∈ vs.zip us ∧ u = some u'

/-- The text has the other somewhere in it. -/
def Has (s u : List Char) : Prop := ∃ pre post, u = pre ++ s ++ post

end Ocgis.Spec
