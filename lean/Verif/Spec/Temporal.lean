import Verif.Model.Seasons
/-!
# What the properties of time axes talk about
-/
namespace Ocgis.Spec
open Ocgis.Temporal (Date)

/-- Consecutive elements differ by 0 to 12. -/
def SmallSteps : List Int → Prop
  | a :: b :: rest => a ≤ b ∧ b ≤ a + 12 ∧ SmallSteps (b :: rest)
  | _ => True

/-- The dates agree on the grouped parts (0 year, 1 month, 2 day, 3 hour, 4 minute, 5 second). -/
def SameParts (grouping : List Nat) (a b : Date) : Prop := ∀ k ∈ grouping, a.parts.getD k 0 = b.parts.getD k 0

/-! ## Seasons -/

/-- The season goes over the end of the year. -/
def wraps (s : List Int) : Bool := s.contains 12 && s.contains 1 && !([1, 2, 3, 4, 5, 6, 7, 8, 9, 10, 11, 12].all (s.contains ·))

/-- A month after the turn of the year: all months from January to it are in the season. -/
def afterNewYear (s : List Int) (m : Int) : Bool := (List.range m.toNat).all fun k => s.contains ((k : Int) + 1)

/-- The calendar months (year, month) of the season beginning in year `y`. -/
def seasonMonths (y : Int) (s : List Int) : List (Int × Int) :=
  s.map fun m => (if wraps s && afterNewYear s m then y + 1 else y, m)

/-- All months of the season are present. -/
def seasonComplete (dates : List Date) (y : Int) (s : List Int) : Bool :=
  (seasonMonths y s).all fun p => dates.any fun d => decide (d.year = p.1) && decide (d.month = p.2)

/-- Which dates belong to the season. -/
def seasonGroup (dates : List Date) (y : Int) (s : List Int) : List Bool :=
  dates.map fun d => (seasonMonths y s).contains (d.year, d.month)

/-- Every date-holding year with every season, in order. -/
def seasonYears (years : List Int) (seasons : List (List Int)) : List (Int × List Int) :=
  years.flatMap fun y => seasons.map fun s => (y, s)

/-- A season of consecutive months: within a year, or over the turn of the year. -/
def SeasonOk (s : List Int) : Prop :=
  s ≠ [] ∧ (¬(12 ∈ s ∧ 1 ∈ s) ∨ (∀ m, m ∈ s ↔ 1 ≤ m ∧ m ≤ 12) ∨
    ∃ a b : Int, 1 ≤ a ∧ a + 1 < b ∧ b ≤ 12 ∧ ∀ m, m ∈ s ↔ (1 ≤ m ∧ m ≤ a) ∨ (b ≤ m ∧ m ≤ 12))

/-- There is a year (the year itself, or the following one for a season over the turn of the year, if the data reaches it)
in which the season has no data at all. -/
def noData (dates : List Date) (years : List Int) (p : Int × List Int) : Bool :=
  (!wraps p.2 || years.contains (p.1 + 1)) &&
  ([p.1, p.1 + 1].any fun y => (seasonMonths p.1 p.2).any (fun q => decide (q.1 = y)) &&
    !(dates.any fun d => decide (d.year = y) && (seasonMonths p.1 p.2).contains (d.year, d.month)))

/-- The season `s` ends before `t` (by `max`), or begins before `t` (by `min`). -/
def SeasonBefore (useMax : Bool) (s t : List Int) : Prop :=
  if useMax then ∃ y ∈ t, ∀ x ∈ s, x < y else ∃ x ∈ s, ∀ y ∈ t, x < y

/-! ## Regions -/

/-- The date is among the months and the years asked for. -/
def Wanted (months years : Option (List Int)) (d : Date) : Prop :=
  (∀ ms, months = some ms → d.month ∈ ms) ∧ (∀ ys, years = some ys → d.year ∈ ys)

/-- A month of the year lies in the range from `lower` up to (not including) `upper`, which may go over the end of the
year; if both are the same, in that month. -/
def MonthInRange (lower upper t : Int) : Prop :=
  if lower = upper then t = lower else if lower < upper then lower ≤ t ∧ t < upper else lower ≤ t ∨ t < upper

/-- The cell is of one month at most: it ends in the month it begins in, or with the beginning of the next. -/
def WithinMonth (b : Date × Date) : Prop :=
  1 ≤ b.1.month ∧ b.1.month ≤ 12 ∧
  ((b.2.year = b.1.year ∧ (b.2.month = b.1.month ∨ b.2.month = b.1.month + 1) ∧ b.2.month ≤ 12) ∨
    (b.1.month = 12 ∧ b.2.month = 1 ∧ b.2.year = b.1.year + 1))

end Ocgis.Spec
