import Verif.Model.Parms
import Verif.Spec.Text

/-! What the parameters promise. -/

namespace Ocgis.Spec
open Ocgis Ocgis.Text Ocgis.Parms

/-- The text in lower case without the blanks around it. -/
def Clean (s t : Text) : Prop := Trimmed (lower s) t

/-- A value of the type the parameter declares. -/
def Typed {D : Type} (w : World D) : Kind → Val D → Prop
  | .boolean, v => ∃ b, v = .bool b
  | .option valid nullable, v => (v = .null ∧ nullable = true) ∨ ∃ o ∈ valid, v = .text o.toList
  | .format valid, v => ∃ o ∈ valid, v = .text o.toList
  | .text nullable guard, v => (v = .null ∧ nullable = true) ∨ ∃ t, v = .text t ∧ guarded w guard t = true
  | .integers, v => v = .null ∨ ∃ is, v = .ints is
  | .levelRange, v => v = .null
  | .timeRange, v => v = .null ∨ ∃ a b, v = .dates a b ∧ w.le a b = true
  | .grouping, v => v = .null ∨ v = .text "all".toList
      ∨ ∃ ws, v = .words ws ∧ ((∀ g ∈ ws, g = "day".toList ∨ g = "month".toList ∨ g = "year".toList)
          ∨ ∀ g ∈ ws, g = "unique".toList ∨ g = "year".toList)
  | .slice, v => v = .null ∨ v = .allSlices
  | .region, v => v = .null ∨ ∃ m y, v = .region m y ∧ (m.isSome = true ∨ y.isSome = true)
  | .crs, v => v = .null ∨ ∃ i, v = .crs i ∧ w.epsg i = .ok ()
  | .never, v => v = .null
  | .regridOptions, _ => False
  | .regridDestination, _ => False
  | .outside, v => v = .outside

/-- A piece `key~values` of a time region with what it means: integers separated by bars. -/
def RegionPiece (p : Text) (e : Text × List Int) : Prop :=
  ∃ values : Text, split '~' p = [e.1, values] ∧ (split '|' values).length = e.2.length
    ∧ ∀ (i : Nat) t k, (split '|' values)[i]? = some t → e.2[i]? = some k → IntText t k

/-- The value of the last entry with a key, if there is one. -/
def LastWith (key : Text) (es : List (Text × List Int)) : Option (List Int) → Prop
  | none => ∀ e ∈ es, e.1 ≠ key
  | some v => ∃ before after, es = before ++ (key, v) :: after ∧ ∀ e ∈ after, e.1 ≠ key

/-- Which parameters take null. -/
def nullable : Kind → Bool
  | .boolean => false
  | .option _ n => n
  | .format _ => false
  | .text n _ => n
  | .regridOptions | .regridDestination | .outside => false
  | _ => true

/-- The parameters that do not change the case of their text. -/
def keepsCase : Kind → Bool
  | .text _ _ => true
  | _ => false

/-- The parameters this is about: not the two that cannot be given by a string and not those left outside. -/
def readable : Kind → Bool
  | .regridOptions | .regridDestination | .outside => false
  | _ => true

/-- A world for examples: dates are numbers written out. -/
def sampleWorld : World Int :=
  { pathExists := fun t => t == "/tmp".toList, units := fun t => t == "K".toList, strptime := toInt,
    le := fun a b => decide (a ≤ b), epsg := fun i => if i = 4326 then .ok () else .error .runtimeError,
    outside := fun _ _ => .ok (), openDataset := fun _ => .ok () }

end Ocgis.Spec
