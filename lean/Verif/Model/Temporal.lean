import Verif.Py
/-!
# Time axes: month arithmetic, grouping, seasons, regions
-/
namespace Ocgis.Temporal

/-- A datetime: the parts used by the code (`_date_parts`, variable/temporal.py:508). -/
structure Date where
  year : Int
  month : Int
  day : Int := 1
  hour : Int := 0
  minute : Int := 0
  second : Int := 0
  deriving DecidableEq, Repr

/-- `[dt.year, dt.month, dt.day, dt.hour, dt.minute, dt.second]` (variable/temporal.py:497-498). -/
def Date.parts (d : Date) : List Int := [d.year, d.month, d.day, d.hour, d.minute, d.second]

/-- Lexicographic `<=` on part lists. -/
def leParts : List Int → List Int → Bool
  | [], _ => true
  | _ :: _, [] => false
  | a :: as, b :: bs => decide (a < b) || (decide (a = b) && leParts as bs)

/-- `origin <= target` on datetimes. -/
def Date.le (a b : Date) : Bool := leParts a.parts b.parts

/-! ## Months since -/

/-- `datetime.datetime(year, month, day)` with a day valid in every month: the year must be in 1..9999 and the month in 1..12. -/
def mkDate (year month day : Int) : Res Date :=
  if 1 ≤ year ∧ year ≤ 9999 ∧ 1 ≤ month ∧ month ≤ 12 then .ok { year := year, month := month, day := day }
  else .error .valueError

/-- One iteration of the loop of `get_datetime_from_months_time_units` (variable/temporal.py:812-820): the date, and the
new `current_year`, `current_month_correction`. -/
def monthStep (originMonth centroid year corr v : Int) : Res (Date × Int × Int) :=
  match mkDate year (originMonth + v - corr) centroid with
  | .ok d => .ok (d, year, corr)
  | .error _ =>
    match mkDate (year + 1) (originMonth + v - (corr + 12)) centroid with
    | .ok d => .ok (d, year + 1, corr + 12)
    | .error e => .error e

/-- The loop. -/
def monthLoop (originMonth centroid : Int) : Int → Int → List Int → Res (List Date)
  | _, _, [] => .ok []
  | year, corr, v :: vs =>
    match monthStep originMonth centroid year corr v with
    | .error e => .error e
    | .ok (d, year', corr') =>
      match monthLoop originMonth centroid year' corr' vs with
      | .error e => .error e
      | .ok ds => .ok (d :: ds)

/-- `get_datetime_from_months_time_units(vec, units, month_centroid)` (variable/temporal.py:783-821), given the origin
parsed from the units. -/
def datesFromMonths (origin : Date) (vec : List Int) (centroid : Int := 16) : Res (List Date) :=
  match vec with
  | [] => .error .indexError
  | v0 :: _ =>
    let q := if v0 ≥ 12 then v0 / 12 else 0
    monthLoop origin.month centroid (origin.year + q) 0 (vec.map fun v => v - q * 12)

/-- The two year corrections (variable/temporal.py:893-898). -/
def rollMonth (m y : Int) : Int × Int :=
  let p := if m = 13 then (1, y + 1) else (m, y)
  if p.1 = 0 then (12, p.2 - 1) else p

/-- One turn of the loop of `_count_` (variable/temporal.py:875-905), for at most `fuel` turns. -/
def countMonths (forward : Bool) (stopMonth stopYear : Int) : Nat → Int → Int → Int → Option Int
  | 0, _, _, _ => none
  | fuel + 1, month, year, count =>
    if month = stopMonth ∧ year = stopYear then some count
    else
      let p := rollMonth (if forward then month + 1 else month - 1) year
      countMonths forward stopMonth stopYear fuel p.1 p.2 (if forward then count + 1 else count - 1)

/-- `get_difference_in_months(origin, target)` (variable/temporal.py:862-915), for at most `fuel` turns of its loop. -/
def differenceInMonths (fuel : Nat) (origin target : Date) : Option Int :=
  countMonths (origin.le target) target.month target.year fuel origin.month origin.year 0

/-- `get_num_from_months_time_units(vec, units)` (variable/temporal.py:934-951). -/
def monthsFromDates (fuel : Nat) (origin : Date) (vec : List Date) : Option (List Int) :=
  vec.mapM fun t => differenceInMonths fuel origin t

/-! ## Grouping -/

/-- Insert into a sorted list without repetition. -/
def insertUnique (x : Int) : List Int → List Int
  | [] => [x]
  | y :: ys => if x < y then x :: y :: ys else if x = y then y :: ys else y :: insertUnique x ys

/-- `np.unique`: sorted, without repetitions. -/
def unique (xs : List Int) : List Int := xs.foldr insertUnique []

/-- `itertools.product` of lists. -/
def product {α : Type _} : List (List α) → List (List α)
  | [] => [[]]
  | l :: ls => l.flatMap fun a => (product ls).map fun r => a :: r

/-- The candidates of `_get_grouping_other_` (variable/temporal.py:508-519): for each of the six parts, the values
present if the part is grouped on, `None` otherwise. -/
def groupCandidates (rows : List (List Int)) (grouping : List Nat) : List (List (Option Int)) :=
  product ((List.range 6).map fun idx =>
    if idx ∈ grouping then (unique (rows.map fun r => r.getD idx 0)).map some else [none])

/-- `match.all(axis=1)` (variable/temporal.py:526-527): which rows agree with the candidate on the grouping parts. -/
def groupMembers (rows : List (List Int)) (grouping : List Nat) (cand : List (Option Int)) : List Bool :=
  rows.map fun r => grouping.all fun k => decide (cand.getD k none = some (r.getD k 0))

/-- The groups of `_get_grouping_other_` for groupings by date parts (variable/temporal.py:507-532): the candidates with
at least one member, and their members. -/
def groups (dates : List Date) (grouping : List Nat) : List (List (Option Int) × List Bool) :=
  let rows := dates.map Date.parts
  ((groupCandidates rows grouping).map fun c => (c, groupMembers rows grouping c)).filter fun g => g.2.any id

/-! ## Seasons -/

/-- `min(season)` / `max(season)`. -/
def seasonKey (useMax : Bool) (season : List Int) : Res Int :=
  match season with
  | [] => .error .valueError
  | m :: ms => .ok (ms.foldl (fun a b => if useMax then max a b else min a b) m)

/-- `max_map[key] = ii` (variable/temporal.py:999-1001), as an association list with the newest entry first. -/
def keyMap (useMax : Bool) : List (List Int) → Res (List (Int × List Int))
  | seasons => do
    let keys ← seasons.mapM (seasonKey useMax)
    .ok (keys.zip seasons).reverse

/-- `get_sorted_seasons(seasons, method)` (variable/temporal.py:981-1005): for each key in order, the last season with it. -/
def sortedSeasons (useMax : Bool) (seasons : List (List Int)) : Res (List (List Int)) := do
  let m ← keyMap useMax seasons
  .ok ((unique (m.map (·.1))).map fun k => (m.lookup k).getD [])

/-- `get_is_interannual(sequence)` (variable/temporal.py:918-931). -/
def isInterannual (season : List Int) : Bool := season.contains 12 && season.contains 1

/-! ## Regions -/

/-- A time region: `{'month': [...], 'year': [...]}`; a missing or `None` entry is `none`. -/
structure Region where
  month : Option (List Int) := none
  year : Option (List Int) := none
  deriving DecidableEq, Repr

/-- The row check of `get_time_region` on a time without bounds (variable/temporal.py:410-430). -/
def Region.holds (r : Region) (d : Date) : Bool :=
  (match r.month with | none => true | some ms => ms.contains d.month) &&
  (match r.year with | none => true | some ys => ys.contains d.year)

/-- `get_time_region(time_region, return_indices=True)` without bounds (variable/temporal.py:380-445): the indices kept. -/
def timeRegion (dates : List Date) (r : Region) : Res (List Nat) :=
  if r.month = none ∧ r.year = none then .error .assertionError
  else
    let idx := (List.range dates.length).filter fun i => match dates[i]? with | some d => r.holds d | none => false
    if idx = [] then .error .emptySubset else .ok idx

/-- `get_is_date_between(lower, upper, month=...)` / `(..., year=...)` on the parts (util/helpers.py:493-521). -/
def partBetween (lower upper t : Int) : Bool :=
  if lower ≠ upper then
    let upper' := if lower > upper then upper + 12 else upper
    decide (t ≥ lower) && decide (t < upper')
  else decide (t ≥ lower) && decide (t ≤ upper)

/-- The row check of `get_time_region` on a time with bounds (variable/temporal.py:417-423). -/
def Region.holdsBounds (r : Region) (b : Date × Date) : Bool :=
  (match r.month with | none => true | some ms => ms.any fun m => partBetween b.1.month b.2.month m) &&
  (match r.year with | none => true | some ys => ys.any fun y => partBetween b.1.year b.2.year y)

/-- `get_time_region(time_region, return_indices=True)` with bounds. -/
def timeRegionBounds (bounds : List (Date × Date)) (r : Region) : Res (List Nat) :=
  if r.month = none ∧ r.year = none then .error .assertionError
  else
    let idx := (List.range bounds.length).filter fun i => match bounds[i]? with | some d => r.holdsBounds d | none => false
    if idx = [] then .error .emptySubset else .ok idx

end Ocgis.Temporal
