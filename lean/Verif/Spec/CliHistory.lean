import Verif.Model.CliHistory
/-!
# The command in the history
-/
namespace Ocgis.Spec
open Ocgis.CliHistory

/-- The same run: the same values of all parameters. -/
def SameRun (s t : Settings) : Prop := ∀ p ∈ parms, match p.kind with
  | .flag .. => s.flag p.name = t.flag p.name
  | .text .. => s.text p.name = t.text p.name

/-- A parameter that is a flag. -/
def isFlag (p : Parm) : Bool := match p.kind with
  | .flag .. => true
  | .text .. => false

/-- A word after a word. -/
def NextTo (a b : String) (l : List String) : Prop := ∃ before after, l = before ++ a :: b :: after

end Ocgis.Spec
