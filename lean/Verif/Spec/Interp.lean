import Verif.Model.Interp

/-! Vocabulary for the statements about the output directory of a run. -/

namespace Ocgis.Spec
open Ocgis Ocgis.Interp

/-- Rank `r` has raised. -/
def Raised (w : World) (r : Nat) : Prop := ∃ e, w.status r = .raised e

/-- The run makes a directory of its own for its output. -/
def MakesDirectory (c : Config) : Prop := c.noDirectory = false ∧ c.auxiliary = true

/-- The names a list of actions writes into a directory before the first failure, and the exception of that failure. -/
def written (d : String) : List Action → List String × Option PyErr
  | [] => ([], none)
  | .write d' n :: rest => if d' = d then (n :: (written d rest).1, (written d rest).2) else ([], some .ioError)
  | .fail e :: _ => ([], some e)

end Ocgis.Spec
