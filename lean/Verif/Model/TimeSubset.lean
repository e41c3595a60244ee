import Verif.Py
/-!
# Validation of time subsets
-/
namespace Ocgis.Temporal

/-- A calendar: month and year of a moment, counted in half days. -/
structure Calendar where
  month : Int → Int
  year : Int → Int

/-- The proleptic Gregorian calendar used by `datetime`: year, month and day of day number `z` (day 0 is 1970-01-01). -/
def civil (z : Int) : Int × Int × Int :=
  let z := z + 719468
  let era := z / 146097
  let doe := z - era * 146097
  let yoe := (doe - doe / 1460 + doe / 36524 - doe / 146096) / 365
  let doy := doe - (365 * yoe + yoe / 4 - yoe / 100)
  let mp := (5 * doy + 2) / 153
  let d := doy - (153 * mp + 2) / 5 + 1
  let m := if mp < 10 then mp + 3 else mp - 9
  let y := yoe + era * 400 + (if m ≤ 2 then 1 else 0)
  (y, m, d)

/-- The Gregorian calendar. -/
def gregorian : Calendar where
  month t := (civil (t / 2)).2.1
  year t := (civil (t / 2)).1

/-- The 360-day calendar (twelve months of thirty days), as an instance about which everything is provable. -/
def calendar360 : Calendar where
  month t := t / 60 % 12 + 1
  year t := t / 720

/-- `months.update([m])`. -/
def addMonth (acc : List Int) (m : Int) : List Int := if acc.contains m then acc else m :: acc

/-- The loop collecting the months of a range (util/helpers.py:1178-1185): `current += 29.5 days` until the end of the range
is passed or there are twelve months. `fuel` bounds the number of turns; the caller
gives more than the loop can make. -/
def rangeMonths (cal : Calendar) (stop : Int) : Nat → Int → List Int → List Int
  | 0, _, acc => acc
  | fuel + 1, current, acc =>
    if current ≤ stop then
      if (addMonth acc (cal.month (current + 59))).length = 12 then addMonth acc (cal.month (current + 59))
      else rangeMonths cal stop fuel (current + 59) (addMonth acc (cal.month (current + 59)))
    else acc

/-- `min(xs), max(xs)`. -/
def minMax : List Int → Res (Int × Int)
  | [] => .error .valueError
  | x :: xs => .ok (xs.foldl min x, xs.foldl max x)

/-- `_check_months_` (util/helpers.py:1150-1156) on the smallest and largest month. -/
def checkMonths (months : List Int) (ms : List Int) : Res Bool :=
  match minMax ms with
  | .error e => .error e
  | .ok (a, b) => .ok (months.contains a && months.contains b)

/-- `_check_years_` (util/helpers.py:1158-1163) on the smallest and largest year. -/
def checkYears (minYear maxYear : Int) (ys : List Int) : Res Bool :=
  match minMax ys with
  | .error e => .error e
  | .ok (a, b) => .ok (decide (minYear ≤ a) && decide (a ≤ maxYear) && (decide (minYear ≤ b) && decide (b ≤ maxYear)))

/-- `validate_time_subset(time_range, time_region)` (util/helpers.py:1126-1202). The region is given by its months and years
(`none` for a missing or `None` entry). -/
def validateTimeSubset (cal : Calendar) (range : Option (Int × Int)) (region : Option (Option (List Int) × Option (List Int))) :
    Res Bool :=
  match range, region with
  | none, _ => .ok true
  | _, none => .ok true
  | some (t0, t1), some (months, years) =>
    let have_ := rangeMonths cal t1 (t1 - t0 + 59).toNat t0 []
    match months, years with
    | some ms, none => checkMonths have_ ms
    | none, some ys => checkYears (cal.year t0) (cal.year t1) ys
    | none, none => .error .typeError
    | some ms, some ys =>
      match minMax ms, minMax ys with
      | .error e, _ => .error e
      | _, .error e => .error e
      | .ok _, .ok _ =>
        match checkMonths have_ ms, checkYears (cal.year t0) (cal.year t1) ys with
        | .ok a, .ok b => .ok (a && b)
        | .error e, _ => .error e
        | _, .error e => .error e

end Ocgis.Temporal
