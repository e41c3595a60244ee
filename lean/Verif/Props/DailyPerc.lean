import Verif.Proofs.DailyPerc
/-!
# C91: daily percentiles
-/
namespace Ocgis.Props
open Ocgis Ocgis.DailyPerc
open Ocgis.Temporal (Date)

/-- C91 (partial: two or more time steps, all at the same full hour and none of them in the first or last year of the
calendar, no value is missing, the width is odd and at most 119 days): the output has one value for every calendar day of the
data, in the order of the year, and the value is the percentile of exactly the data of the days in the window around that
calendar day. -/
theorem C91_percentiles_partial (ord : List Int → List Int) (ho : SetOrder ord) (dates : List Date) (series : List Rat)
    (mask : List Bool) (p : Rat) (k : Nat) (onlyLeap : Bool) (h : Int) (hd : ∀ t ∈ dates, GoodDate t) (hh : OnTheHour dates h)
    (hn : 2 ≤ dates.length) (hm : ∀ b ∈ mask, b = false) (hp : 0 ≤ p ∧ p ≤ 100) (hk : k ≤ 59) :
    ∃ out, calculate ord 1 1 dates series mask p (2 * k + 1) onlyLeap = .ok out ∧ CalendarDays dates (out.map (·.1))
      ∧ ∀ m d x b, ((m, d), x, b) ∈ out → b = false ∧ ∃ js, Steps dates (fun t => InWindow onlyLeap k m d (dayOf t)) js
        ∧ IsPercentile (js.map fun j => series.getD j 0) p x := by
  obtain ⟨out, e, hc, hv⟩ := calculate_spec ord ho dates series mask p k onlyLeap h hd hh hn hp hk
  refine ⟨out, e, hc, fun m d x b hmem => ⟨?_, (hv m d x b hmem).2⟩⟩
  rw [(hv m d x b hmem).1]
  cases mask with
  | nil => rfl
  | cons b bs => exact hm b (by simp)

/-- C91 (partial, as above): a cell without a value at any time has none for any calendar day. -/
theorem C91_missing_partial (ord : List Int → List Int) (ho : SetOrder ord) (dates : List Date) (series : List Rat)
    (mask : List Bool) (p : Rat) (k : Nat) (onlyLeap : Bool) (h : Int) (hd : ∀ t ∈ dates, GoodDate t) (hh : OnTheHour dates h)
    (hn : 2 ≤ dates.length) (hl : mask.length = dates.length) (hm : ∀ b ∈ mask, b = true) (hp : 0 ≤ p ∧ p ≤ 100) (hk : k ≤ 59) :
    ∃ out, calculate ord 1 1 dates series mask p (2 * k + 1) onlyLeap = .ok out ∧ CalendarDays dates (out.map (·.1))
      ∧ ∀ md x b, (md, x, b) ∈ out → b = true := by
  obtain ⟨out, e, hc, hv⟩ := calculate_spec ord ho dates series mask p k onlyLeap h hd hh hn hp hk
  refine ⟨out, e, hc, fun md x b hmem => ?_⟩
  rw [(hv md.1 md.2 x b hmem).1]
  match mask, hl with
  | [], hl => simp at hl; omega
  | b :: bs, _ => exact hm b (by simp)

/-- C91 (partial, as above): the result does not depend on the order in which the days of a month are visited. -/
theorem C91_order_partial (ord ord' : List Int → List Int) (ho : SetOrder ord) (ho' : SetOrder ord') (dates : List Date)
    (series : List Rat) (mask : List Bool) (p : Rat) (k : Nat) (onlyLeap : Bool) (h : Int) (hd : ∀ t ∈ dates, GoodDate t)
    (hh : OnTheHour dates h) (hn : 2 ≤ dates.length) (hp : 0 ≤ p ∧ p ≤ 100) (hk : k ≤ 59) :
    calculate ord 1 1 dates series mask p (2 * k + 1) onlyLeap = calculate ord' 1 1 dates series mask p (2 * k + 1) onlyLeap := by
  obtain ⟨out, e, hc, hv⟩ := calculate_spec ord ho dates series mask p k onlyLeap h hd hh hn hp hk
  obtain ⟨out', e', hc', hv'⟩ := calculate_spec ord' ho' dates series mask p k onlyLeap h hd hh hn hp hk
  rw [e, e']
  have hkeys := calendarDays_unique hc hc'
  refine congrArg _ (List.ext_getElem (by rw [← List.length_map, hkeys, List.length_map]) fun i h1 h2 => ?_)
  have h1' : i < (out.map (·.1)).length := by simpa using h1
  have h2' : i < (out'.map (·.1)).length := by simpa using h2
  have ek : (out[i]).1 = (out'[i]).1 := by
    have : (out.map (·.1))[i] = (out'.map (·.1))[i] := by simp only [hkeys]
    simpa using this
  have m1 : out[i] ∈ out := List.getElem_mem h1
  have m2 : out'[i] ∈ out' := List.getElem_mem h2
  generalize out[i] = a at *
  generalize out'[i] = a' at *
  obtain ⟨⟨m, d⟩, x, b⟩ := a
  obtain ⟨⟨m', d'⟩, x', b'⟩ := a'
  cases ek
  obtain ⟨rfl, js, s1, p1⟩ := hv _ _ _ _ m1
  obtain ⟨rfl, js', s2, p2⟩ := hv' _ _ _ _ m2
  have := steps_unique s1 s2
  subst this
  rw [isPercentile_unique p1 p2]

/-- C91 (partial, as above): a higher percentile is not smaller. -/
theorem C91_monotone_partial (ord : List Int → List Int) (ho : SetOrder ord) (dates : List Date) (series : List Rat)
    (mask : List Bool) (p q : Rat) (k : Nat) (onlyLeap : Bool) (h : Int) (hd : ∀ t ∈ dates, GoodDate t) (hh : OnTheHour dates h)
    (hn : 2 ≤ dates.length) (hp : 0 ≤ p) (hpq : p ≤ q) (hq : q ≤ 100) (hk : k ≤ 59) :
    ∃ out out', calculate ord 1 1 dates series mask p (2 * k + 1) onlyLeap = .ok out
      ∧ calculate ord 1 1 dates series mask q (2 * k + 1) onlyLeap = .ok out' ∧ out.map (·.1) = out'.map (·.1)
      ∧ ∀ md x b x' b', (md, x, b) ∈ out → (md, x', b') ∈ out' → x ≤ x' := by
  obtain ⟨out, e, hc, hv⟩ := calculate_spec ord ho dates series mask p k onlyLeap h hd hh hn ⟨hp, by grind⟩ hk
  obtain ⟨out', e', hc', hv'⟩ := calculate_spec ord ho dates series mask q k onlyLeap h hd hh hn ⟨by grind, hq⟩ hk
  refine ⟨out, out', e, e', calendarDays_unique hc hc', fun md x b x' b' m1 m2 => ?_⟩
  obtain ⟨_, js, s1, p1⟩ := hv _ _ _ _ m1
  obtain ⟨_, js', s2, p2⟩ := hv' _ _ _ _ m2
  have := steps_unique s1 s2
  subst this
  exact isPercentile_mono p1 p2 hpq

/-- C91 (partial, as above): the results are within the range of the data. -/
theorem C91_between_partial (ord : List Int → List Int) (ho : SetOrder ord) (dates : List Date) (series : List Rat)
    (mask : List Bool) (p lo hi : Rat) (k : Nat) (onlyLeap : Bool) (h : Int) (hd : ∀ t ∈ dates, GoodDate t) (hh : OnTheHour dates h)
    (hn : 2 ≤ dates.length) (hl : series.length = dates.length) (hr : ∀ v ∈ series, lo ≤ v ∧ v ≤ hi) (hp : 0 ≤ p ∧ p ≤ 100)
    (hk : k ≤ 59) :
    ∃ out, calculate ord 1 1 dates series mask p (2 * k + 1) onlyLeap = .ok out
      ∧ ∀ md x b, (md, x, b) ∈ out → lo ≤ x ∧ x ≤ hi := by
  obtain ⟨out, e, hc, hv⟩ := calculate_spec ord ho dates series mask p k onlyLeap h hd hh hn hp hk
  refine ⟨out, e, fun md x b hmem => ?_⟩
  obtain ⟨_, js, s1, p1⟩ := hv _ _ _ _ hmem
  refine isPercentile_between p1 fun v hv => ?_
  obtain ⟨j, hj, rfl⟩ := List.mem_map.1 hv
  obtain ⟨t, ht, _⟩ := (s1.2 j).1 hj
  have hjl : j < series.length := by rw [hl]; exact (List.getElem?_eq_some_iff.1 ht).1
  rw [List.getD_eq_getElem?_getD, List.getElem?_eq_getElem hjl]
  exact hr _ (List.getElem_mem hjl)

/-- C91: a written result is read back, day by day. -/
theorem C91_read_back (ord : List Int → List Int) (nr nl : Nat) (dates : List Date) (series : List Rat) (mask : List Bool)
    (p : Rat) (width : Int) (onlyLeap : Bool) (out) (h : calculate ord nr nl dates series mask p width onlyLeap = .ok out)
    (md : Int × Int) (v : Rat × Bool) : readBack (out.map (·.1)) (out.map (·.2)) md = some v ↔ (md, v) ∈ out :=
  readBack_iff _ (calculate_nodup h) md v

/-- C91 (partial: no value is missing): the percentile along the time axis. -/
theorem C91_frequency_partial (series : List Rat) (mask : List Bool) (p : Rat) (hs : series ≠ []) (hm : ∀ b ∈ mask, b = false)
    (hp : 0 ≤ p ∧ p ≤ 100) : ∃ x, frequencyPercentile series mask p = .ok (x, false) ∧ IsPercentile series p x := by
  obtain ⟨x, e, hx⟩ := percentile_ok series p hs hp.1 hp.2
  refine ⟨x, ?_, hx⟩
  unfold frequencyPercentile
  rw [e]
  show Except.ok (x, mask.getD 0 false) = _
  cases mask with
  | nil => rfl
  | cons b bs => rw [show (b :: bs).getD 0 false = b from rfl, hm b (by simp)]

/-- C91: percentiles below zero or above one hundred are refused. -/
theorem C91_bad_percentile (series : List Rat) (mask : List Bool) (p : Rat) :
    frequencyPercentile series mask p = .error .valueError ↔ ¬ (0 ≤ p ∧ p ≤ 100) := by
  unfold frequencyPercentile percentile
  by_cases c : p < 0 ∨ 100 < p
  · rw [if_pos c]
    refine iff_of_true rfl ?_
    grind
  · rw [if_neg c]
    refine iff_of_false ?_ ?_
    · split <;> intro h <;> cases h
    · grind

namespace DailyPercEx

/-- Daily data at noon, from 30 December 2003 on. -/
def dates : List Date :=
  [⟨2003, 12, 30, 12, 0, 0⟩, ⟨2003, 12, 31, 12, 0, 0⟩, ⟨2004, 1, 1, 12, 0, 0⟩, ⟨2004, 1, 2, 12, 0, 0⟩, ⟨2004, 12, 31, 12, 0, 0⟩]

def series : List Rat := [10, 20, 30, 40, 50]

def mask : List Bool := [false, false, false, false, false]

/-- The result, in the order of the year. -/
example : calculate id 1 1 dates series mask 50 3 false
    = .ok [((1, 1), 35, false), ((1, 2), 35, false), ((12, 30), 20, false), ((12, 31), 25, false)] := by decide +kernel

example : SetOrder id := fun l => List.Perm.refl l

example : SetOrder List.reverse := fun l => List.reverse_perm l

example : (∀ t ∈ dates, GoodDate t) ∧ OnTheHour dates 12 ∧ 2 ≤ dates.length ∧ (∀ b ∈ mask, b = false)
    ∧ (0 : Rat) ≤ 50 ∧ (50 : Rat) ≤ 100 := by decide +kernel

/-- Around 29 February. -/
def february : List Date :=
  [⟨2003, 2, 27, 0, 0, 0⟩, ⟨2003, 2, 28, 0, 0, 0⟩, ⟨2003, 3, 1, 0, 0, 0⟩, ⟨2003, 3, 2, 0, 0, 0⟩, ⟨2004, 2, 28, 0, 0, 0⟩,
    ⟨2004, 2, 29, 0, 0, 0⟩, ⟨2004, 3, 1, 0, 0, 0⟩]

example : (calculate id 1 1 february [1, 2, 3, 4, 5, 6, 7] [] 0 3 false).toOption.bind (fun out => readBack (out.map (·.1)) (out.map (·.2)) (2, 29))
      = some (2, false)
    ∧ (calculate id 1 1 february [1, 2, 3, 4, 5, 6, 7] [] 0 3 true).toOption.bind (fun out => readBack (out.map (·.1)) (out.map (·.2)) (2, 29))
      = some (5, false) := by decide +kernel

example : frequencyPercentile [3, 1, 2, 10] [] 75 = .ok (19 / 4, false) := by decide +kernel

end DailyPercEx

open DailyPercEx in
/-- C91 fails: a masked value enters the percentile, and the result is not masked; a cell that is masked at the first time step
only is masked for every calendar day. -/
theorem C91_masked_counterexample :
    calculate id 1 1 dates [10, 20, 30, 1000000, 50] [false, false, false, true, false] 100 1 false
      = .ok [((1, 1), 30, false), ((1, 2), 1000000, false), ((12, 30), 10, false), ((12, 31), 50, false)]
    ∧ calculate id 1 1 dates series [true, false, false, false, false] 100 1 false
      = .ok [((1, 1), 30, true), ((1, 2), 40, true), ((12, 30), 10, true), ((12, 31), 50, true)]
    ∧ frequencyPercentile [1, 1000000, 3] [false, true, false] 100 = .ok (1000000, false)
    ∧ frequencyPercentile [1, 2, 3] [true, false, false] 100 = .ok (3, true) := by decide +kernel

/-- C91 fails: at half past twelve the difference to the full hour of the day before is a day and a half hour, that to the
day after less than a day; a window of one day therefore holds the data of two days. -/
theorem C91_half_hour_counterexample :
    calculate id 1 1 [⟨2003, 5, 1, 12, 30, 0⟩, ⟨2003, 5, 2, 12, 30, 0⟩] [10, 20] [] 0 1 false
      = .ok [((5, 1), 10, false), ((5, 2), 10, false)] := by decide +kernel

/-- C91 fails: a width of four days selects the days up to two days away, five days. -/
theorem C91_even_width_counterexample :
    calculate id 1 1 [⟨2003, 5, 1, 0, 0, 0⟩, ⟨2003, 5, 3, 0, 0, 0⟩, ⟨2003, 5, 5, 0, 0, 0⟩] [10, 20, 30] [] 0 4 false
      = calculate id 1 1 [⟨2003, 5, 1, 0, 0, 0⟩, ⟨2003, 5, 3, 0, 0, 0⟩, ⟨2003, 5, 5, 0, 0, 0⟩] [10, 20, 30] [] 0 5 false
    ∧ calculate id 1 1 [⟨2003, 5, 1, 0, 0, 0⟩, ⟨2003, 5, 3, 0, 0, 0⟩, ⟨2003, 5, 5, 0, 0, 0⟩] [10, 20, 30] [] 0 4 false
      = .ok [((5, 1), 10, false), ((5, 3), 10, false), ((5, 5), 20, false)] := by decide +kernel

/-- C91 fails for a width of 121 days: 31 December 2003 is sixty days before 29 February 2004 but not in the window of
29 February, although the window of 28 February holds it. -/
theorem C91_wide_counterexample :
    (∃ j, j ≤ 60 ∧ (Day.mk 2003 12 31).after j = ⟨2004, 2, 29⟩)
    ∧ calculate id 1 1 [⟨2003, 12, 31, 0, 0, 0⟩, ⟨2004, 2, 28, 0, 0, 0⟩, ⟨2004, 2, 29, 0, 0, 0⟩] [10, 20, 30] [] 0 121 false
      = .ok [((2, 28), 10, false), ((2, 29), 20, false), ((12, 31), 10, false)] :=
  ⟨⟨60, by decide +kernel⟩, by decide +kernel⟩

/-- C91 fails: data of the first year of the calendar raise an error, because the year before does not exist; so does a single
time step, and so do several levels or realizations. -/
theorem C91_error_counterexample :
    calculate id 1 1 [⟨1, 5, 1, 0, 0, 0⟩, ⟨1, 5, 2, 0, 0, 0⟩] [10, 20] [] 0 1 false = .error .valueError
    ∧ calculate id 1 1 [⟨2003, 5, 1, 0, 0, 0⟩] [10] [] 0 1 false = .error .typeError
    ∧ (∀ ord nr nl dates series mask p width only, nr ≠ 1 ∨ nl ≠ 1 →
      calculate ord nr nl dates series mask p width only = .error .assertionError) := by
  refine ⟨by decide +kernel, by decide +kernel, fun ord nr nl dates series mask p width only h => ?_⟩
  unfold calculate
  rw [if_pos h]
  rfl

end Ocgis.Props
