import Verif.Model.Series
/-!
# Series
-/
namespace Ocgis.Spec
open Ocgis.Series

/-- The values from step `lo` up to but not including step `hi`. -/
def stretch {α : Type _} (l : List α) (lo hi : Nat) : List α := (l.drop lo).take (hi - lo)

/-- A maximal run of true values: it starts at `s`, has length `len`, and cannot be made longer on either side. -/
structure MaximalRun (vec : List Bool) (s len : Nat) : Prop where
  pos : 0 < len
  holds : ∀ i, s ≤ i → i < s + len → vec[i]? = some true
  before : s = 0 ∨ vec[s - 1]? = some false
  after : s + len = vec.length ∨ vec[s + len]? = some false

/-- `lens` are the lengths of all the maximal runs, in the order in which they start. -/
def RunLengths (vec : List Bool) (lens : List Nat) : Prop :=
  ∃ runs : List (Nat × Nat), (∀ s len, (s, len) ∈ runs ↔ MaximalRun vec s len) ∧ runs.Pairwise (fun a b => a.1 < b.1) ∧ lens = runs.map (·.2)

/-- The full overlap of the kernel with the series ending at step `t + len(v) - 1`. -/
def FullOverlap (values v : List Int) (t : Nat) : Prop := t + v.length ≤ values.length

/-- The comparison a name stands for. -/
def Compares (op : String) (x t : Rat) : Prop :=
  (op = "gt" ∧ x > t) ∨ (op = "lt" ∧ x < t) ∨ (op = "gte" ∧ x ≥ t) ∨ (op = "lte" ∧ x ≤ t)

instance (op : String) (x t : Rat) : Decidable (Compares op x t) := inferInstanceAs (Decidable (_ ∨ _))

/-- The number of maximal runs of a length, given all maximal runs. -/
def countRuns (runs : List (Nat × Nat)) (len : Nat) : Nat := (runs.filter fun r => r.2 = len).length

/-- The degree-days accumulated over the days `c`, ..., `p - 1`. -/
def degreeDays (x : List Rat) (c p : Nat) : Rat := (stretch x c p).sum

/-- A day at which accumulation starts: the first day, or one on the other side of the freezing point from the day before it. -/
def StartsAt (x : List Rat) (c : Nat) : Prop :=
  c = 0 ∨ (0 < c ∧ c < x.length ∧ ¬ (0 ≤ x.getD (c - 1) 0 ↔ 0 ≤ x.getD c 0))

/-- The degree-days accumulated from day `c` first reach the threshold after day `p - 1`, above the freezing point if `thaw`, else below. -/
structure Reaches (x : List Rat) (threshold : Rat) (c p : Nat) (thaw : Bool) : Prop where
  later : c < p
  inside : p ≤ x.length
  reached : threshold ≤ if thaw then degreeDays x c p else -degreeDays x c p
  notBefore : ∀ q, c ≤ q → q < p → degreeDays x c q < threshold ∧ -degreeDays x c q < threshold

/-- An event as the index records it: after how many days, positive for thawing, negative for freezing. -/
def eventAt (p : Nat) (thaw : Bool) : Int := if thaw then (p : Int) else -(p : Int)

end Ocgis.Spec
