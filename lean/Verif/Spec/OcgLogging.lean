import Verif.Model.OcgLogging
/-!
# What a logger is to do
-/
namespace Ocgis.Spec
open Ocgis.OcgLogging

/-- The call is a warning. -/
def IsWarning (c : LogCall) : Prop := c.level = 30

/-- The histories end alike: the last thing told is the same. -/
def EndAlike (h h' : List LogOp) : Prop := h.getLast? = h'.getLast?

end Ocgis.Spec
