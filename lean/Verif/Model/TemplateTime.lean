import Verif.Py
/-!
# Times written as dates

Models `get_datetime_from_template_time_units` (variable/temporal.py:824-844), for the units `day as %Y%m%d.%f`: the digits before the point are the
date, the fraction is the part of the day.  Numbers are rational and not negative; what the library says to a date that is none is left out: the
result is what it is given.
-/
namespace Ocgis.TemplateTime

/-- The digits of a number, with enough turns. -/
def digitsFrom : Nat → Nat → List Nat
  | 0, n => [n % 10]
  | k + 1, n => if n < 10 then [n] else digitsFrom k (n / 10) ++ [n % 10]

/-- `str(n)`. -/
def digits (n : Nat) : List Nat := digitsFrom n n

/-- `int(digits)`: no digits are refused. -/
def number (l : List Nat) : Res Nat := if l = [] then .error .valueError else .ok (l.foldl (fun a d => 10 * a + d) 0)

/-- The arguments for `datetime`. -/
structure Parts where
  year : Nat
  month : Nat
  day : Nat
  hour : Nat
  minute : Nat
  deriving DecidableEq, Repr

/-- The loop body (variable/temporal.py:836-843). -/
def parts (q : Rat) : Res Parts :=
  let ymd := digits q.floor.toNat
  let hm := q - (q.floor.toNat : Nat)
  (number (ymd.take 4)).bind fun year =>
  (number ((ymd.drop 4).take 2)).bind fun month =>
  (number ((ymd.drop 6).take 2)).bind fun day =>
    let hour := 24 * hm
    let minute := ((hour - (hour.floor : Int)) * 60).floor.toNat
    .ok ⟨year, month, day, hour.floor.toNat, minute⟩

end Ocgis.TemplateTime
