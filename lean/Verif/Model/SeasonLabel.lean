import Verif.Py
/-!
# The name of a grouping by seasons

Models `SeasonalTemporalGroup.icclim_mode` (calc/temporal_groups.py:12-36), which names the seasons in the history of an icclim index.
-/
namespace Ocgis.SeasonLabel

/-- An element of the grouping: one of the flags `unique` and `year` (calc/temporal_groups.py:15), or the months of a season. -/
inductive Part where
  | unique
  | year
  | season (months : List Nat)
deriving DecidableEq, Repr

/-- The first letter of a month's name (calc/temporal_groups.py:13-14). -/
def letter (m : Nat) : Res Char :=
  match m with
  | 1 => .ok 'J' | 2 => .ok 'F' | 3 => .ok 'M' | 4 => .ok 'A' | 5 => .ok 'M' | 6 => .ok 'J'
  | 7 => .ok 'J' | 8 => .ok 'A' | 9 => .ok 'S' | 10 => .ok 'O' | 11 => .ok 'N' | 12 => .ok 'D'
  | _ => .error .keyError

/-- The letters of a season (calc/temporal_groups.py:27-28). -/
def letters : List Nat → Res (List Char)
  | [] => .ok []
  | m :: l => match letter m with
    | .error e => .error e
    | .ok c => match letters l with
      | .error e => .error e
      | .ok cs => .ok (c :: cs)

/-- The names of the seasons and the last flag met (calc/temporal_groups.py:22-31). -/
def collect (flag : Option Part) : List Part → Res (List (List Char) × Option Part)
  | [] => .ok ([], flag)
  | .unique :: l => collect (some .unique) l
  | .year :: l => collect (some .year) l
  | .season ms :: l => match letters ms with
    | .error e => .error e
    | .ok cs => match collect flag l with
      | .error e => .error e
      | .ok (names, f) => .ok (cs :: names, f)

/-- `'-'.join` (calc/temporal_groups.py:32). -/
def joined : List (List Char) → List Char
  | [] => []
  | [a] => a
  | a :: b :: l => a ++ '-' :: joined (b :: l)

/-- The flag after the names (calc/temporal_groups.py:33-34). -/
def ending : Option Part → List Char
  | some .unique => " (unique)".toList
  | some .year => " (year)".toList
  | _ => []

/-- `icclim_mode` (calc/temporal_groups.py:20-35), as letters. -/
def icclimMode (g : List Part) : Res (List Char) :=
  match collect none g with
  | .error e => .error e
  | .ok (names, f) => .ok (joined names ++ ending f)

end Ocgis.SeasonLabel
