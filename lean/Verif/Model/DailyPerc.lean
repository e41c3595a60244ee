import Verif.Model.Temporal
/-!
# Percentiles of calendar days (`calc/library/statistics.py`)

The functions `daily_perc` and `freq_perc`.  The operations along the time axis treat the cells of the grid one by one, so a
single cell is modelled: a value and a mask for every time step.  Times are `datetime.datetime` objects without
microseconds; the objects used for other calendars are left out.  Numbers are rationals instead of floats.
-/
namespace Ocgis.DailyPerc
open Ocgis.Temporal (Date groups)

/-! ## Dates of the standard library -/

/-- `calendar.isleap`. -/
def isLeap (y : Int) : Bool := y % 4 == 0 && (y % 100 != 0 || y % 400 == 0)

/-- The number of days of a month (`datetime._days_in_month`). -/
def monthDays (y m : Int) : Int :=
  if m = 2 then (if isLeap y then 29 else 28)
  else if m = 4 ∨ m = 6 ∨ m = 9 ∨ m = 11 then 30
  else 31

/-- The number of days of the months before (`datetime._days_before_month`). -/
def daysBefore (y m : Int) : Int := ((List.range (m - 1).toNat).map fun i : Nat => monthDays y (i + 1)).sum

/-- `date.toordinal` (`datetime._ymd2ord`). -/
def ordinal (y m d : Int) : Int := 365 * (y - 1) + (y - 1) / 4 - (y - 1) / 100 + (y - 1) / 400 + daysBefore y m + d

/-- The seconds between two datetimes (`datetime.__sub__`) are the difference of these. -/
def seconds (t : Date) : Int := ordinal t.year t.month t.day * 86400 + t.hour * 3600 + t.minute * 60 + t.second

/-- `timedelta.days`, of a time difference in seconds: rounded down. -/
def days (delta : Int) : Int := delta / 86400

/-- `datetime(year, month, day, hour)`. -/
def datetime (y m d h : Int) : Res Date :=
  if 1 ≤ y ∧ y ≤ 9999 ∧ 1 ≤ m ∧ m ≤ 12 ∧ 1 ≤ d ∧ d ≤ monthDays y m ∧ 0 ≤ h ∧ h < 24 then .ok ⟨y, m, d, h, 0, 0⟩
  else .error .valueError

/-! ## numpy -/

/-- The linear interpolation of `np.percentile` in a sorted list. -/
def interpolate (s : List Rat) (p : Rat) : Rat :=
  let v := p / 100 * ((s.length : Rat) - 1)
  let i := v.floor.toNat
  s.getD i 0 + (v - i) * (s.getD (min (i + 1) (s.length - 1)) 0 - s.getD i 0)

/-- A value put at its place in a sorted list. -/
def insertSorted (x : Rat) : List Rat → List Rat
  | [] => [x]
  | y :: ys => if x ≤ y then x :: y :: ys else y :: insertSorted x ys

/-- The values in ascending order. -/
def sorted (xs : List Rat) : List Rat := xs.foldr insertSorted []

/-- `np.percentile(values, percentile, axis=0)` for one cell; the mask of a masked array is not looked at. -/
def percentile (xs : List Rat) (p : Rat) : Res Rat :=
  if p < 0 ∨ 100 < p then .error .valueError
  else if xs = [] then .error .indexError
  else .ok (interpolate (sorted xs) p)

/-! ## The window around a calendar day -/

/-- `get_masked` for 29 February (statistics.py:290-301).  `a > width / 2` for integers is `2 * a > width`. -/
def maskedFeb29 (t : Date) (hour width : Int) (onlyLeap : Bool) : Res Bool :=
  if isLeap t.year then do
    let dt1 ← datetime t.year 2 29 hour
    .ok (decide (2 * days (seconds t - seconds dt1).natAbs > width))
  else if onlyLeap then .ok true
  else do
    let dt1 ← datetime t.year 2 28 hour
    let diff := days (seconds t - seconds dt1)
    .ok (decide (2 * diff < -width + 2) || decide (2 * diff > width))

/-- `get_masked` for the other days (statistics.py:302-316). -/
def maskedOther (t : Date) (month day hour width : Int) : Res Bool := do
  let d1 ← datetime t.year month day hour
  let d2 ← datetime (t.year + 1) month day hour
  let d3 ← datetime (t.year - 1) month day hour
  let diff := min (days (seconds t - seconds d1).natAbs)
    (min (days (seconds t - seconds d2).natAbs) (days (seconds t - seconds d3).natAbs))
  .ok (decide (2 * diff > width))

/-- `get_masked` (statistics.py:266-318): whether a date is outside the window around a calendar day. -/
def getMasked (t : Date) (month day hour width : Int) (onlyLeap : Bool) : Res Bool :=
  if day = 29 ∧ month = 2 then maskedFeb29 t hour width onlyLeap else maskedOther t month day hour width

/-- `get_mask_dt_arr` (statistics.py:320-338). -/
def maskArr (dates : List Date) (month day hour width : Int) (onlyLeap : Bool) : Res (List Bool) :=
  dates.mapM fun t => getMasked t month day hour width onlyLeap

/-- `np.where(dt_arr_mask == False)[0]` (statistics.py:226). -/
def unmaskedIndices (mask : List Bool) : List Nat := (List.range mask.length).filter fun i => mask.getD i true == false

/-! ## The calendar days of the data -/

/-- The months in the order in which they turn up (statistics.py:256-259). -/
def months (dates : List Date) : List Int := (dates.map (·.month)).eraseDups

/-- `list(set(..))`: without repetitions, in an order `ord` that is not specified (statistics.py:261-262). -/
def daysOf (ord : List Int → List Int) (dates : List Date) (month : Int) : List Int :=
  ord ((dates.filter fun t => t.month = month).map (·.day)).eraseDups

/-- `get_dict_caldays` (statistics.py:246-264) and the loops over it (statistics.py:220-221). -/
def caldays (ord : List Int → List Int) (dates : List Date) : List (Int × Int) :=
  (months dates).flatMap fun m => (daysOf ord dates m).map fun d => (m, d)

/-- The body of the loop (statistics.py:222-238): the percentile of the values of the window. -/
def dayPercentile (dates : List Date) (series : List Rat) (p : Rat) (width hour : Int) (onlyLeap : Bool) (md : Int × Int) :
    Res ((Int × Int) × Rat) := do
  let mask ← maskArr dates md.1 md.2 hour width onlyLeap
  let x ← percentile ((unmaskedIndices mask).map fun i => series.getD i 0) p
  .ok (md, x)

/-- `get_daily_percentile` (statistics.py:185-244).  `dt_arr.squeeze()` makes an array without dimensions of a single time
(statistics.py:210), which cannot be iterated (statistics.py:258). -/
def dailyPercentile (ord : List Int → List Int) (dates : List Date) (series : List Rat) (p : Rat) (width : Int)
    (onlyLeap : Bool) : Res (List ((Int × Int) × Rat)) :=
  match dates with
  | [] => .error .indexError
  | [_] => .error .typeError
  | t :: _ :: _ => (caldays ord dates).mapM (dayPercentile dates series p width t.hour onlyLeap)

/-! ## The calculation -/

/-- Month and day of the time coordinates of the output (statistics.py:153, variable/temporal.py:628-632): the
representative datetime of a group by month and day has the month and the day of the group. -/
def groupDays (dates : List Date) : List (Int × Int) :=
  (groups dates [1, 2]).map fun g => ((g.1.getD 1 none).getD 0, (g.1.getD 2 none).getD 0)

/-- `month_day_map[key]` (statistics.py:166): the last position wins. -/
def position (keys : List (Int × Int)) (md : Int × Int) : Res Nat :=
  match ((List.range keys.length).filter fun i => keys[i]? = some md).getLast? with
  | none => .error .keyError
  | some i => .ok i

/-- `fill[0, month_day_map[key], 0, :, :] = value` (statistics.py:167-168). -/
def fillDay (keys : List (Int × Int)) (fill : List Rat) (e : (Int × Int) × Rat) : Res (List Rat) := do
  let i ← position keys e.1
  if i < fill.length then .ok (fill.set i e.2) else .error .indexError

/-- `DailyPercentile.calculate` (statistics.py:155-171) for one cell of a variable with `nr` realizations and `nl` levels.
The result is listed together with month and day of its time coordinates; a value is masked if the first time step is
(statistics.py:169-170). -/
def calculate (ord : List Int → List Int) (nr nl : Nat) (dates : List Date) (series : List Rat) (mask : List Bool) (p : Rat)
    (width : Int) (onlyLeap : Bool) : Res (List ((Int × Int) × Rat × Bool)) := do
  if nr ≠ 1 ∨ nl ≠ 1 then .error .assertionError
  let dp ← dailyPercentile ord dates series p width onlyLeap
  let keys := groupDays dates
  let fill ← dp.foldlM (fillDay keys) (List.replicate dp.length 0)
  .ok (keys.zip (fill.map fun x => (x, mask.getD 0 false)))

/-- `get_daily_percentile_from_request_dataset` (statistics.py:173-183), for one cell of a field with these times and values:
the last time step of a calendar day wins. -/
def readBack (times : List (Int × Int)) (values : List (Rat × Bool)) (md : Int × Int) : Option (Rat × Bool) :=
  (times.zip values).foldl (fun r e => if e.1 = md then some e.2 else r) none

/-- `FrequencyPercentile.calculate` (statistics.py:363-371) for one cell: value and mask. -/
def frequencyPercentile (series : List Rat) (mask : List Bool) (p : Rat) : Res (Rat × Bool) := do
  let x ← percentile series p
  .ok (x, mask.getD 0 false)

end Ocgis.DailyPerc
