import Verif.Model.TimeGroup

/-! What grouped times should be. -/

namespace Ocgis.Spec
open Ocgis.Temporal Ocgis.TimeGroup

/-- One date is not after another: years, months, days, hours, minutes and seconds in this order. -/
def NotAfter (a b : Date) : Prop := [a.year, a.month, a.day, a.hour, a.minute, a.second] ≤ [b.year, b.month, b.day, b.hour, b.minute, b.second]

/-- One date is before another. -/
def Before (a b : Date) : Prop := ¬ NotAfter b a

/-- The part of a date with a name. -/
def partOf (d : Date) : String → Int
  | "year" => d.year
  | "month" => d.month
  | "day" => d.day
  | "hour" => d.hour
  | "minute" => d.minute
  | _ => d.second

/-- Two dates agree on parts. -/
def AgreeOn (names : List String) (a b : Date) : Prop := ∀ n ∈ names, partOf a n = partOf b n

/-- Time number `i` is in the group. -/
def Member (g : Group) (i : Nat) : Prop := g.members[i]? = some true

/-- Every time is in exactly one of the groups. -/
def Partitioned (n : Nat) (gs : List Group) : Prop :=
  ∀ i, i < n → ∃ (k : Nat) (g : Group), gs[k]? = some g ∧ Member g i ∧ ∀ (k' : Nat) (g' : Group), gs[k']? = some g' → Member g' i → k' = k

/-- The bounds of a time; without bounds, the time itself twice. -/
def timeCell (t : TimeVar) (i : Nat) : Option (Date × Date) :=
  match t.bounds with
  | some bs => bs[i]?
  | none => (t.dates[i]?).map fun d => (d, d)

/-- The first and the last of all lower and upper bounds of the members; without bounds, of the members themselves. -/
structure Covers (t : TimeVar) (ms : List Bool) (b : Date × Date) : Prop where
  below : ∀ (i : Nat) (c : Date × Date), ms[i]? = some true → timeCell t i = some c → NotAfter b.1 c.1 ∧ NotAfter b.1 c.2
  above : ∀ (i : Nat) (c : Date × Date), ms[i]? = some true → timeCell t i = some c → NotAfter c.1 b.2 ∧ NotAfter c.2 b.2
  first : ∃ (i : Nat) (c : Date × Date), ms[i]? = some true ∧ timeCell t i = some c ∧ (b.1 = c.1 ∨ b.1 = c.2)
  last : ∃ (i : Nat) (c : Date × Date), ms[i]? = some true ∧ timeCell t i = some c ∧ (b.2 = c.1 ∨ b.2 = c.2)

/-- Bounds belong to times. -/
def Sound (t : TimeVar) : Prop := t.dates ≠ [] ∧ ∀ bs, t.bounds = some bs → bs.length = t.dates.length

/-- The date parts that can be grouped on: years, months and days, at least one of them. -/
def Groupable (names : List String) : Prop := names ≠ [] ∧ ∀ n ∈ names, n = "year" ∨ n = "month" ∨ n = "day"

/-- The months from one to another. -/
def Contiguous (season : List Int) : Prop := ∀ a ∈ season, ∀ b ∈ season, ∀ m, a ≤ m → m ≤ b → m ∈ season

end Ocgis.Spec
