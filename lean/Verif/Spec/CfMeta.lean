import Verif.Model.CfMeta

/-! Vocabulary for the statements about the coordinates found in the metadata of a file. -/

namespace Ocgis.Spec
open Ocgis Ocgis.CfMeta

/-- The metadata of a file: every variable is stored under its own name, no two variables have the same name, and every variable has
attributes. -/
def FileMeta (vars : Vars) : Prop :=
  (vars.map Prod.fst).Nodup ∧ ∀ k v, (k, v) ∈ vars → v.name = k ∧ ∃ as, v.attrs = some as

/-- The variable has the attribute with the value. -/
def HasAttr (v : VarMeta) (attr value : String) : Prop := ∃ as, v.attrs = some as ∧ as.lookup attr = some value

/-- The variable says it is the axis, and has a dimension. -/
def SaysAxis (attr value : String) (vars : Vars) (k : String) : Prop :=
  ∃ v, (k, v) ∈ vars ∧ v.dims ≠ [] ∧ HasAttr v attr value

/-- The usual names of the coordinate variables of an axis. -/
def UsualName : Axis → String → Prop
  | .R, _ => False
  | .T, n => n = "time"
  | .Z, n => n = "z" ∨ n = "zc" ∨ n = "level" ∨ n = "lvl" ∨ n = "height"
  | .Y, n => n = "y" ∨ n = "yc" ∨ n = "latitude" ∨ n = "lat"
  | .X, n => n = "x" ∨ n = "xc" ∨ n = "longitude" ∨ n = "lon"

/-- The file has a variable with this name, which is a usual one for the axis. -/
def HasUsualName (axis : Axis) (vars : Vars) (k : String) : Prop := UsualName axis k ∧ ∃ v, (k, v) ∈ vars

/-- `k` and nothing else has the property. -/
def OnlyOne (P : String → Prop) (k : String) : Prop := P k ∧ ∀ j, P j → j = k

/-- The coordinate variable of an axis: the only variable that says it is the axis; if there is none, and the metadata need not be taken
strictly, the only variable with a usual name. -/
def IsCoord (strict : Bool) (attr value : String) (axis : Axis) (vars : Vars) (k : String) : Prop :=
  OnlyOne (SaysAxis attr value vars) k ∨
    (strict = false ∧ (∀ j, ¬ SaysAxis attr value vars j) ∧ OnlyOne (HasUsualName axis vars) k)

/-- The text that the attribute `axis` has for an axis. -/
def axisText : Axis → String
  | .R => "R" | .T => "T" | .Z => "Z" | .Y => "Y" | .X => "X"

/-- The name of the bounds that a coordinate variable gives: for time these may be called a climatology. -/
def GivesBounds (axis : Axis) (v : VarMeta) (b : String) : Prop :=
  axis ≠ .R ∧ (HasAttr v "bounds" b ∨ (axis = .T ∧ HasAttr v "climatology" b))

/-- The dimension of a coordinate variable with several dimensions that belongs to the axis: rows are first, columns second. -/
def DimOf (strict : Bool) (axis : Axis) (dims d : List String) : Prop :=
  (strict = false → axis = .Y → 2 ≤ dims.length → d = dims.take 1) ∧
  (strict = false → axis = .X → 2 ≤ dims.length → d = (dims.drop 1).take 1) ∧
  (strict = true ∨ (axis ≠ .X ∧ axis ≠ .Y) ∨ dims.length ≤ 1 → d = dims)

end Ocgis.Spec
