import Verif.Model.Temporal
/-!
# Unique seasons
-/
namespace Ocgis.Temporal

/-- Insert into a descending list. -/
def insertDesc (x : Int) : List Int → List Int
  | [] => [x]
  | y :: ys => if y ≤ x then x :: y :: ys else y :: insertDesc x ys

/-- `_cg.sort(); _cg.reverse()` (variable/temporal.py:1037-1039). -/
def sortDesc (xs : List Int) : List Int := xs.foldr insertDesc []

/-- `np.split(_cg, split_indices)` at the places where neighbours differ by more than one (variable/temporal.py:1041-1044). -/
def splitRuns : List Int → List (List Int)
  | [] => [[]]
  | [a] => [[a]]
  | a :: b :: rest =>
    if (a - b).natAbs > 1 then [a] :: splitRuns (b :: rest)
    else match splitRuns (b :: rest) with
      | [] => [[a]]
      | r :: rs => (a :: r) :: rs

/-- The sub-regions of an interannual season beginning in year number `ii` (variable/temporal.py:1046-1060); `none` if
there is no further year and incomplete seasons are passed over. -/
def subRegions (years : List Int) (ii : Nat) (raiseIfIncomplete : Bool) : List (List Int) → Res (Option (List Region))
  | [] => .ok (some [])
  | s :: ss =>
    match years[ii]? with
    | none => if raiseIfIncomplete then .error .incompleteSeason else .ok none
    | some y =>
      match subRegions years (ii + 1) raiseIfIncomplete ss with
      | .error e => .error e
      | .ok none => .ok none
      | .ok (some rs) => .ok (some ({ month := some s, year := some [y] } :: rs))

/-- The region of one year and season (variable/temporal.py:1031-1064). -/
def seasonRegion (years : List Int) (ii : Nat) (year : Int) (raiseIfIncomplete : Bool) (season : List Int) :
    Res (Option (List Region)) :=
  if isInterannual season then subRegions years ii raiseIfIncomplete (splitRuns (sortDesc season))
  else .ok (some [{ month := some season, year := some [year] }])

/-- All regions before removal (variable/temporal.py:1015-1068). -/
def rawRegions (seasons : List (List Int)) (years : List Int) (raiseIfIncomplete : Bool) : Res (List (List Region)) :=
  if years.length > 1 ∧ seasons.any isInterannual then do
    let rs ← ((List.range years.length).zip years).mapM fun y =>
      seasons.mapM fun s => seasonRegion years y.1 y.2 raiseIfIncomplete s
    .ok (rs.flatMap fun r => r.filterMap id)
  else .ok (years.flatMap fun y => seasons.map fun s => [{ month := some s, year := some [y] }])

/-- Some sub-region selects nothing (variable/temporal.py:1072-1077). -/
def regionEmpty (dates : List Date) (rs : List Region) : Bool :=
  rs.any fun r => match timeRegion dates r with | .error .emptySubset => true | _ => false

/-- `for xx in remove: time_regions.pop(xx)` (variable/temporal.py:1078-1079). -/
def popAll {α : Type _} : List Nat → List α → Res (List α)
  | [], l => .ok l
  | x :: xs, l => if x < l.length then popAll xs (l.eraseIdx x) else .error .indexError

/-- The indices of the regions to remove. -/
def removeIndices (dates : List Date) (regions : List (List Region)) : List Nat :=
  (List.range regions.length).filter fun i => match regions[i]? with | some r => regionEmpty dates r | none => false

/-- `get_time_regions(seasons, dates, raise_if_incomplete)` (variable/temporal.py:1008-1081). -/
def timeRegions (seasons : List (List Int)) (dates : List Date) (raiseIfIncomplete : Bool) : Res (List (List Region)) := do
  let regions ← rawRegions seasons (unique (dates.map (·.year))) raiseIfIncomplete
  popAll (removeIndices dates regions) regions

/-- Whether the months selected by a region are all those requested (variable/temporal.py:1103-1106). -/
def monthsComplete (dates : List Date) (r : Region) (idx : List Nat) : Bool :=
  let months := idx.filterMap fun i => (dates[i]?).map (·.month)
  let wanted := r.month.getD []
  months.all (wanted.contains ·) && wanted.all (months.contains ·)

/-- The inner loop of `iter_boolean_groups_from_time_regions` (variable/temporal.py:1100-1116), without raising for
incomplete seasons: the indices appended, and whether the season is complete. -/
def subGroup (dates : List Date) : List Region → Res (List Nat × Bool)
  | [] => .ok ([], true)
  | r :: rs =>
    match timeRegion dates r with
    | .error e => .error e
    | .ok idx =>
      match subGroup dates rs with
      | .error e => .error e
      | .ok (rest, c) => .ok (idx ++ rest, monthsComplete dates r idx && c)

/-- `iter_boolean_groups_from_time_regions(..., raise_if_incomplete=False)` (variable/temporal.py:1082-1128). -/
def booleanGroups (dates : List Date) (regions : List (List Region)) : Res (List (List Bool)) := do
  let gs ← regions.mapM (subGroup dates)
  .ok ((gs.filter (·.2)).map fun g => (List.range dates.length).map fun i => g.1.contains i)

/-- The groups of `_get_grouping_seasonal_unique_` (variable/temporal.py:661-692), after sorting the seasons. -/
def uniqueSeasons (seasons : List (List Int)) (dates : List Date) : Res (List (List Bool)) := do
  let regions ← timeRegions seasons dates false
  booleanGroups dates regions

end Ocgis.Temporal
