import Verif.Model.RegridDest
import Verif.Spec.Text
/-!
# Which dataset should be the one to regrid to
-/
namespace Ocgis.Spec
open RegridDest Text

/-- A capital letter. -/
def Capital (c : Char) : Prop := 'A' ≤ c ∧ c ≤ 'Z'

/-- A name that is looked up as it is: no capital letters, no blanks around it, and not the word for nothing. -/
def LookedUp (s : Text) : Prop := (∀ c ∈ s, ¬ Capital c) ∧ Trimmed s s ∧ s ≠ "none".toList

end Ocgis.Spec
