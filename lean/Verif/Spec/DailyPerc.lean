import Verif.Model.DailyPerc
/-!
# What daily percentiles are

Days are counted with the calendar, one after the other; a percentile is read off the values in ascending order.
-/
namespace Ocgis.DailyPerc
open Ocgis.Temporal (Date)

/-- A year divisible by four, except for the centuries not divisible by four hundred. -/
def IsLeapYear (y : Int) : Prop := 4 ∣ y ∧ (¬ 100 ∣ y ∨ 400 ∣ y)

instance (y : Int) : Decidable (IsLeapYear y) := by unfold IsLeapYear; infer_instance

/-- A day. -/
structure Day where
  year : Int
  month : Int
  day : Int
  deriving DecidableEq

/-- The number of days of the month. -/
def Day.length (x : Day) : Int :=
  if x.month = 2 then (if IsLeapYear x.year then 29 else 28)
  else if x.month ∈ [4, 6, 9, 11] then 30 else 31

/-- A day of the calendar. -/
def Day.Valid (x : Day) : Prop := 1 ≤ x.month ∧ x.month ≤ 12 ∧ 1 ≤ x.day ∧ x.day ≤ x.length

instance (x : Day) : Decidable x.Valid := by unfold Day.Valid; infer_instance

/-- The next day. -/
def Day.next (x : Day) : Day :=
  if x.day < x.length then ⟨x.year, x.month, x.day + 1⟩
  else if x.month < 12 then ⟨x.year, x.month + 1, 1⟩
  else ⟨x.year + 1, 1, 1⟩

/-- Some days later. -/
def Day.after (x : Day) : Nat → Day
  | 0 => x
  | n + 1 => (x.after n).next

/-- The day of a datetime. -/
def dayOf (t : Date) : Day := ⟨t.year, t.month, t.day⟩

/-- At most `k` days apart. -/
def Near (a b : Day) (k : Nat) : Prop := ∃ j, j ≤ k ∧ (a.after j = b ∨ b.after j = a)

/-- At most `k` days before or after the missing 29 February of a year: one of the last `k` days up to 28 February or of the
first `k` days from 1 March on. -/
def NearGap (y : Int) (b : Day) (k : Nat) : Prop := ∃ j, j < k ∧ (b.after j = ⟨y, 2, 28⟩ ∨ (Day.mk y 3 1).after j = b)

/-- At most `k` days from a calendar day of some year; for 29 February of a year without that day its place counts, unless
only leap years are to be used. -/
def InWindow (onlyLeap : Bool) (k : Nat) (month day : Int) (b : Day) : Prop :=
  (∃ y, (Day.mk y month day).Valid ∧ Near ⟨y, month, day⟩ b k)
  ∨ (month = 2 ∧ day = 29 ∧ onlyLeap = false ∧ ∃ y, ¬ IsLeapYear y ∧ NearGap y b k)

/-- Dates of the calendar in the years for which neighbouring years are representable. -/
def GoodDate (t : Date) : Prop := (dayOf t).Valid ∧ 2 ≤ t.year ∧ t.year ≤ 9998 ∧ 0 ≤ t.hour ∧ t.hour < 24

instance (t : Date) : Decidable (GoodDate t) := by unfold GoodDate; infer_instance

/-- All times of day are the same full hour. -/
def OnTheHour (dates : List Date) (h : Int) : Prop := ∀ t ∈ dates, t.hour = h ∧ t.minute = 0 ∧ t.second = 0

instance (dates : List Date) (h : Int) : Decidable (OnTheHour dates h) := by unfold OnTheHour; infer_instance

/-- The time steps, in ascending order, with a property. -/
def Steps (dates : List Date) (P : Date → Prop) (js : List Nat) : Prop :=
  js.Pairwise (· < ·) ∧ ∀ j, j ∈ js ↔ ∃ t, dates[j]? = some t ∧ P t

/-- The `p`-th percentile: with the values in ascending order, the place `p` per cent of the way from the first to the last
value; between two values the place is on the line between them. -/
def IsPercentile (xs : List Rat) (p : Rat) (x : Rat) : Prop :=
  ∃ s : List Rat, s.Perm xs ∧ s.Pairwise (· ≤ ·) ∧ ∃ (i : Nat) (f : Rat),
    0 ≤ f ∧ f < 1 ∧ (i : Rat) + f = p / 100 * ((xs.length : Rat) - 1)
    ∧ ((f = 0 ∧ s[i]? = some x) ∨ ∃ a b, s[i]? = some a ∧ s[i + 1]? = some b ∧ x = (1 - f) * a + f * b)

/-- Earlier in the year. -/
def Earlier (a b : Int × Int) : Prop := a.1 < b.1 ∨ (a.1 = b.1 ∧ a.2 < b.2)

/-- The calendar days of the data, in the order of the year. -/
def CalendarDays (dates : List Date) (ks : List (Int × Int)) : Prop :=
  ks.Pairwise Earlier ∧ ∀ m d, (m, d) ∈ ks ↔ ∃ t ∈ dates, t.month = m ∧ t.day = d

/-- An order in which a set may be listed. -/
def SetOrder (ord : List Int → List Int) : Prop := ∀ l, (ord l).Perm l

end Ocgis.DailyPerc
