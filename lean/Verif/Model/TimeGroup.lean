import Verif.Model.Seasons

/-! Grouped time variables: `TemporalVariable.get_grouping` (variable/temporal.py:227-271) with bounds, labels and representative times
of the groups.  Which times are in a group is `Model/Temporal.lean` and `Model/Seasons.lean`.  Times are not masked. -/

namespace Ocgis.TimeGroup
open Ocgis Ocgis.Temporal

/-- What grouping looks at: the datetimes, the bounds, the dimension and the names of the dimensions of the bounds. -/
structure TimeVar where
  dates : List Date
  bounds : Option (List (Date × Date)) := none
  dim : String := "time"
  unlimited : Bool := false
  boundsDims : List String := ["time", "bounds"]

/-- The groupings: `'all'`, seasons with `'unique'`, seasons with or without `'year'`, and names of date parts. -/
inductive Grouping
  | all
  | uniq (seasons : List (List Int))
  | seasonal (byYear : Bool) (seasons : List (List Int))
  | parts (names : List String)

/-- `date_parts` of a group; there are none for `'all'` and unique seasons. -/
inductive Label
  | none
  | parts (values : List (Option Int))
  | season (months : List Int) (year : Option Int)
  deriving DecidableEq, Repr

structure Group where
  members : List Bool
  bounds : Date × Date
  time : Date
  label : Label
  deriving DecidableEq, Repr

/-- The grouped variable. -/
structure GroupVar where
  groups : List Group
  dim : String
  unlimited : Bool
  boundsDims : List String
  deriving DecidableEq, Repr

/-- The array of lower bounds, values and upper bounds without its middle (variable/temporal.py:479-495, 589). -/
def TimeVar.cells (t : TimeVar) : List (Date × Date) :=
  match t.bounds with
  | none => t.dates.map fun d => (d, d)
  | some bs => bs

/-- Selection by a boolean array. -/
def pick {β : Type} (ms : List Bool) (xs : List β) : List β := (ms.zip xs).filterMap fun p => if p.1 then some p.2 else none

/-- `min` of datetimes. -/
def earliest : Date → List Date → Date
  | d, [] => d
  | d, e :: es => earliest (if d.le e then d else e) es

/-- `max` of datetimes. -/
def latest : Date → List Date → Date
  | d, [] => d
  | d, e :: es => latest (if d.le e then e else d) es

/-- `[sel.min(), sel.max()]` (variable/temporal.py:590). -/
def extentOf (ds : List Date) : Res (Date × Date) :=
  match ds with
  | [] => .error .valueError
  | d :: ds => .ok (earliest d ds, latest d ds)

/-- Both bounds of the members (variable/temporal.py:589-590). -/
def groupBounds (t : TimeVar) (ms : List Bool) : Res (Date × Date) :=
  extentOf ((pick ms t.cells).flatMap fun c => [c.1, c.2])

/-- `_date_parts` (variable/temporal.py:30). -/
def partNames : List String := ["year", "month", "day", "hour", "minute", "second"]

/-- `group_map_rev` (variable/temporal.py:475, 523). -/
def partIndices (names : List String) : Res (List Nat) :=
  names.mapM fun n => if partNames.contains n then .ok (partNames.idxOf n) else .error .keyError

/-- Equality of sets of names. -/
def sameSet (a b : List String) : Bool := a.all b.contains && b.all a.contains

/-- A field of `ref_value`. -/
def part (cand : List (Option Int)) (k : Nat) : Int := (cand.getD k none).getD 0

/-- The representative time of a group by date parts (variable/temporal.py:603-642).  `get_datetime_or_netcdftime` takes any day
(variable/temporal.py:847-859): what is no `datetime` is a `netcdftime` object. -/
def partsTime (names : List String) (lower : Date) (cand : List (Option Int)) : Res Date :=
  if sameSet names ["month"] then .ok { year := lower.year, month := part cand 1, day := 16 }
  else if sameSet names ["year"] then .ok { year := part cand 0, month := 7, day := 1 }
  else if sameSet names ["month", "year"] then .ok { year := part cand 0, month := part cand 1, day := 16 }
  else if sameSet names ["day"] then .ok { year := lower.year, month := lower.month, day := part cand 2, hour := 12 }
  else if sameSet names ["day", "month"] then .ok { year := lower.year, month := part cand 1, day := part cand 2, hour := 12 }
  else if sameSet names ["day", "year"] then .ok { year := part cand 0, month := 7, day := part cand 2, hour := 12 }
  else if sameSet names ["day", "year", "month"] then .ok { year := part cand 0, month := part cand 1, day := part cand 2, hour := 12 }
  else .error .notImplemented

/-- One group by date parts. -/
def partsGroup (t : TimeVar) (names : List String) (g : List (Option Int) × List Bool) : Res Group :=
  match groupBounds t g.2 with
  | .error e => .error e
  | .ok b =>
    match partsTime names b.1 g.1 with
    | .error e => .error e
    | .ok r => .ok ⟨g.2, b, r, .parts g.1⟩

/-- Groups by date parts (variable/temporal.py:507-535, 573-597). -/
def partsGroups (t : TimeVar) (names : List String) : Res (List Group) :=
  match partIndices names with
  | .error e => .error e
  | .ok is => (groups t.dates is).mapM (partsGroup t names)

/-- The members of a season, in a year or in all years (variable/temporal.py:560-567). -/
def seasonMembers (dates : List Date) (season : List Int) (year : Option Int) : List Bool :=
  dates.map fun d => season.contains d.month && (match year with | some y => decide (y = d.year) | none => true)

/-- The years and seasons in order (variable/temporal.py:543-559). -/
def seasonKeys (dates : List Date) (byYear : Bool) (seasons : List (List Int)) : Res (List (Option Int × List Int)) :=
  match sortedSeasons false seasons with
  | .error e => .error e
  | .ok ss => .ok ((if byYear then (unique (dates.map (·.year))).map some else [none]).flatMap fun y => ss.map fun s => (y, s))

/-- The representative time of a season (variable/temporal.py:645-658). -/
def seasonTime (b : Date × Date) (months : List Int) : Date :=
  { year := (b.1.year + b.2.year) / 2
    month := if months.contains 12 && months.contains 1 then months.getD (months.length / 2) 0 else (b.1.month + b.2.month) / 2
    day := 16 }

/-- One season. -/
def seasonGroup (t : TimeVar) (k : Option Int × List Int) : Res Group :=
  match groupBounds t (seasonMembers t.dates k.2 k.1) with
  | .error e => .error e
  | .ok b => .ok ⟨seasonMembers t.dates k.2 k.1, b, seasonTime b k.2, .season k.2 k.1⟩

/-- Groups by seasons (variable/temporal.py:537-597). -/
def seasonGroups (t : TimeVar) (byYear : Bool) (seasons : List (List Int)) : Res (List Group) :=
  match seasonKeys t.dates byYear seasons with
  | .error e => .error e
  | .ok ks => ks.mapM (seasonGroup t)

/-- `get_time_region(time_region, return_indices=True)`: by bounds if there are some (variable/temporal.py:394-434). -/
def regionOf (t : TimeVar) (r : Region) : Res (List Nat) :=
  match t.bounds with
  | none => timeRegion t.dates r
  | some bs => timeRegionBounds bs r

/-- The regions of one unique season (variable/temporal.py:1099-1116). -/
def regionsOf (t : TimeVar) : List Region → Res (List Nat × Bool)
  | [] => .ok ([], true)
  | r :: rs =>
    match regionOf t r with
    | .error e => .error e
    | .ok idx =>
      match regionsOf t rs with
      | .error e => .error e
      | .ok (rest, c) => .ok (idx ++ rest, monthsComplete t.dates r idx && c)

/-- One unique season: bounds and representative are values of its times (variable/temporal.py:683-688). -/
def uniqueGroup (t : TimeVar) (idx : List Nat) : Res Group :=
  match extentOf (pick ((List.range t.dates.length).map fun i => idx.contains i) t.dates) with
  | .error e => .error e
  | .ok b =>
    .ok ⟨(List.range t.dates.length).map fun i => idx.contains i, b,
      (pick ((List.range t.dates.length).map fun i => idx.contains i) t.dates).getD
        ((pick ((List.range t.dates.length).map fun i => idx.contains i) t.dates).length / 2) b.1, .none⟩

/-- Unique seasons (variable/temporal.py:661-692, 1082-1128). -/
def uniqueGroups (t : TimeVar) (seasons : List (List Int)) : Res (List Group) := do
  let sorted ← sortedSeasons true seasons
  let regions ← timeRegions sorted t.dates false
  let gs ← regions.mapM (regionsOf t)
  (gs.filter (·.2)).mapM fun g => uniqueGroup t g.1

/-- All times (variable/temporal.py:447-465); `int(n / 2 - 1)` is 0 for one time. -/
def allGroup (t : TimeVar) : Res (List Group) :=
  match extentOf (t.cells.flatMap fun c => [c.1, c.2]) with
  | .error e => .error e
  | .ok b => .ok [⟨t.dates.map fun _ => true, b, t.dates.getD ((t.dates.length - 2) / 2) b.1, .none⟩]

/-- The groups (variable/temporal.py:239-247). -/
def groupsOf (t : TimeVar) : Grouping → Res (List Group)
  | .all => allGroup t
  | .uniq ss => uniqueGroups t ss
  | .seasonal y ss => seasonGroups t y ss
  | .parts names => partsGroups t names

/-- The dimensions of the new bounds (variable/temporal.py:250-261). -/
def newBoundsDims (t : TimeVar) : List String := t.dim :: (match t.bounds with | some _ => t.boundsDims.tail | none => ["bounds"])

/-- `get_grouping(grouping)` (variable/temporal.py:227-271); without times there is no first value to look at
(variable/temporal.py:118). -/
def getGrouping (t : TimeVar) (g : Grouping) : Res GroupVar :=
  if t.dates.isEmpty then .error .indexError
  else
    match groupsOf t g with
    | .error e => .error e
    | .ok gs => .ok ⟨gs, t.dim, t.unlimited, newBoundsDims t⟩

end Ocgis.TimeGroup
