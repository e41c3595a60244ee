import Verif.Py
/-!
# The resolution of a coordinate variable

Models `Variable.resolution` (variable/base.py:643-663) and the resolution in the report of a time variable (variable/temporal.py:317-341), for
variables in one dimension.  Values are rational numbers.
-/
namespace Ocgis.VarResolution

/-- `constants.RESOLUTION_LIMIT` (constants.py:121). -/
def limit : Nat := 100

/-- A coordinate variable: its values, and its bounds if it has some. -/
structure Coord where
  values : List Rat
  bounds : Option (List (Rat × Rat))
  deriving DecidableEq, Repr

/-- What asking for the resolution gives; `nan` is the mean of no values. -/
inductive Result
  | value (q : Rat)
  | nan
  | resolutionError
  deriving DecidableEq, Repr

/-- `np.abs`. -/
def abs (q : Rat) : Rat := if q < 0 then -q else q

/-- `np.diff`. -/
def diff : List Rat → List Rat
  | a :: b :: l => (b - a) :: diff (b :: l)
  | _ => []

/-- Summing an array. -/
def total (l : List Rat) : Rat := l.foldl (· + ·) 0

/-- `.mean()`. -/
def mean (l : List Rat) : Result := if l.length = 0 then .nan else .value (total l / (l.length : Nat))

/-- `Variable.resolution` (variable/base.py:653-663). -/
def resolution (c : Coord) : Result :=
  match c.bounds with
  | none =>
    if c.values.length < 2 then .resolutionError
    else mean ((diff ((c.values.take limit).map abs)).map abs)
  | some bs => mean ((bs.take limit).map fun b => abs (b.2 - b.1))

/-- `int` of a number: towards zero. -/
def trunc (q : Rat) : Int := if 0 ≤ q then q.floor else q.ceil

/-- What a report of a time variable shows as its resolution in days. -/
inductive Shown
  | days (n : Int)
  | singleton
  | notFormatted
  | failed (e : PyErr)
  deriving DecidableEq, Repr

/-- The resolution in `TemporalVariable.get_report` (variable/temporal.py:317-335); `int` of not-a-number raises. -/
def report (formatTime : Bool) (c : Coord) : Shown :=
  if formatTime then
    match resolution c with
    | .value q => .days (trunc q)
    | .nan => .failed .valueError
    | .resolutionError => .singleton
  else .notFormatted

end Ocgis.VarResolution
