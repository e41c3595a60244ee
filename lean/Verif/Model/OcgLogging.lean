import Verif.Py
/-!
# Messages, warnings and errors through the logger

Models `OcgisLogging` (util/logging_ocgis.py:54-192).  Simplified: the file and the stream are one log; the header lines are left out; a warning that is
issued does not raise (Python's filter for warnings is not modelled); the text of a log entry is without the line's time, name and rank.
-/
namespace Ocgis.OcgLogging

/-- An exception: its class and its text. -/
structure Exc where
  cls : String
  text : String
deriving DecidableEq, Repr

/-- The state (util/logging_ocgis.py:55-62): nothing to log to, the level, the callback and its level. -/
structure LogState where
  null : Bool
  level : Nat
  callback : Option Nat
  callbackLevel : Nat
deriving DecidableEq, Repr

/-- A fresh logger (util/logging_ocgis.py:55-64). -/
def fresh : LogState := ⟨true, 0, none, 0⟩

/-- What a logger is told: to be configured (util/logging_ocgis.py:108-109) or shut down. -/
inductive LogOp where
  | configure (toFile toStream : Bool) (level : Nat) (callback : Option Nat) (callbackLevel : Nat)
  | shutdown
deriving DecidableEq, Repr

/-- `configure` (util/logging_ocgis.py:108-118) and `shutdown` (util/logging_ocgis.py:166-172). With nothing to log to, the level stays. -/
def applyOp (s : LogState) : LogOp → LogState
  | .configure toFile toStream level callback callbackLevel =>
    if toFile = false ∧ toStream = false then { s with null := true, callback := callback, callbackLevel := callbackLevel }
    else ⟨false, level, callback, callbackLevel⟩
  | .shutdown => fresh

/-- The state after a history. -/
def after (history : List LogOp) : LogState := history.foldl applyOp fresh

/-- The arguments of a call (util/logging_ocgis.py:66). -/
structure LogCall where
  msg : Option String
  level : Nat
  alias : Option String
  ugid : Option String
  exc : Option Exc
  force : Bool
deriving DecidableEq, Repr

/-- What a call does: a warning issued, a callback called, an entry in the log, an exception raised. -/
structure Effects where
  warned : Option Exc
  called : Option (Nat × String)
  logged : Option (Nat × String)
  raised : Option Exc
deriving DecidableEq, Repr

/-- `logging.WARN` and `logging.ERROR`. -/
def warnLevel : Nat := 30
def errorLevel : Nat := 40

/-- A message as text: Python's `str`. -/
def str (m : Option String) : String := m.getD "None"

/-- `'{0}: {1}'.format(exc.__class__.__name__, exc)` (util/logging_ocgis.py:83, 103). -/
def excText (e : Exc) : String := e.cls ++ ": " ++ e.text

/-- The exception in force (util/logging_ocgis.py:68-70): a warning has one always. -/
def excOf (c : LogCall) : Option Exc := if c.level = warnLevel then some (c.exc.getD ⟨"OcgWarning", str c.msg⟩) else c.exc

/-- `get_formatted_msg` if there is an alias (util/logging_ocgis.py:97-98, 150-156). -/
def formatted (c : LogCall) : String :=
  match c.alias with
  | none => str c.msg
  | some a => match c.ugid with
    | none => "alias=" ++ a ++ ": " ++ str c.msg
    | some u => "alias=" ++ a ++ ", ugid=" ++ u ++ ": " ++ str c.msg

/-- The call of the callback (util/logging_ocgis.py:78-84). -/
def callback (s : LogState) (c : LogCall) : Option (Nat × String) :=
  match s.callback with
  | none => none
  | some f =>
    if s.callbackLevel ≤ c.level then
      match c.msg with
      | some m => some (f, m)
      | none => (excOf c).map fun e => (f, excText e)
    else none

/-- An entry below the level of the logger is dropped. -/
def entry (s : LogState) (level : Nat) (text : String) : Option (Nat × String) := if s.level ≤ level then some (level, text) else none

/-- `OcgisLogging.__call__` (util/logging_ocgis.py:66-106). -/
def emit (suppress : Bool) (s : LogState) (c : LogCall) : Effects :=
  { warned := if c.level = warnLevel ∧ (suppress = false ∨ c.force = true) then excOf c else none
    called := callback s c
    logged :=
      if s.null then none
      else match excOf c with
        | none => entry s (if c.level = 0 then s.level else c.level) (formatted c)
        | some e => if c.level = warnLevel then entry s warnLevel (excText e) else entry s errorLevel (formatted c)
    raised := if c.level = warnLevel then none else excOf c }

end Ocgis.OcgLogging
