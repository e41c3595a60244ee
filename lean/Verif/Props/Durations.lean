import Verif.Proofs.Durations
/-!
# C45: spells; C46: freezing and thawing
-/
namespace Ocgis.Props
open Ocgis.Series Ocgis.Spec

/-! ## C45 -/

/-- C45 (some run has two steps or more): the durations are the lengths of all the maximal runs of steps satisfying the condition. -/
theorem C45_durations_partial (vec : List Bool) (i : Nat) (h1 : vec[i]? = some true) (h2 : vec[i + 1]? = some true) :
    RunLengths vec (consecutive vec) := by
  have hn : 0 < vec.length := by
    have := (List.getElem?_eq_some_iff.1 h1).1
    omega
  have ha : anyAdjacent (trueIdx vec) = true := by
    rw [anyAdjacent_iff _ (trueIdx_sorted vec)]
    exact ⟨i, (mem_trueIdx vec i).2 h1, (mem_trueIdx vec (i + 1)).2 h2⟩
  rw [consecutive, if_pos ha]
  exact pieces_runs vec hn

/-- C45: what is found in the other cases: a single one if any step satisfies the condition, a single zero if none does. -/
theorem C45_isolated (vec : List Bool) (hno : ∀ i : Nat, vec[i]? = some true → vec[i + 1]? ≠ some true) :
    (true ∈ vec → consecutive vec = [1]) ∧ (true ∉ vec → consecutive vec = [0]) ∧
    ((∃ i : Nat, vec[i]? = some true ∧ ∀ j : Nat, vec[j]? = some true → j = i) → RunLengths vec (consecutive vec)) := by
  have ha : anyAdjacent (trueIdx vec) = false := by
    cases h : anyAdjacent (trueIdx vec) with
    | false => rfl
    | true =>
      obtain ⟨a, h1, h2⟩ := (anyAdjacent_iff _ (trueIdx_sorted vec)).1 h
      exact absurd ((mem_trueIdx vec _).1 h2) (hno a ((mem_trueIdx vec a).1 h1))
  have h1 : true ∈ vec → consecutive vec = [1] := by
    intro h
    have : vec.any id = true := by rw [List.any_eq_true]; exact ⟨true, h, rfl⟩
    simp [consecutive, ha, this]
  refine ⟨h1, ?_, ?_⟩
  · intro h
    have : vec.any id = false := by
      rw [List.any_eq_false]
      intro x hx
      cases x with
      | false => simp
      | true => exact absurd hx h
    simp [consecutive, ha, this]
  · rintro ⟨i, hi, huniq⟩
    rw [h1 (List.mem_of_getElem? hi)]
    refine ⟨[(i, 1)], ?_, by simp, rfl⟩
    intro s len
    simp only [List.mem_singleton, Prod.mk.injEq]
    have hlt := (List.getElem?_eq_some_iff.1 hi).1
    constructor
    · rintro ⟨rfl, rfl⟩
      refine ⟨by omega, ?_, ?_, ?_⟩
      · intro j hj1 hj2
        rw [show j = s by omega]; exact hi
      · by_cases h0 : s = 0
        · exact .inl h0
        · right
          rw [getElem?_getD vec (s - 1) (by omega)]
          cases hv : vec.getD (s - 1) false with
          | false => rfl
          | true =>
            have := huniq (s - 1) (by rw [getElem?_getD vec (s - 1) (by omega), hv])
            omega
      · by_cases h0 : s + 1 = vec.length
        · exact .inl h0
        · right
          rw [getElem?_getD vec (s + 1) (by omega)]
          cases hv : vec.getD (s + 1) false with
          | false => rfl
          | true =>
            have := huniq (s + 1) (by rw [getElem?_getD vec (s + 1) (by omega), hv])
            omega
    · intro hr
      have hs := huniq s (hr.holds s (by omega) (by have := hr.pos; omega))
      refine ⟨hs, ?_⟩
      apply Classical.byContradiction
      intro hne
      have hpos := hr.pos
      have := huniq (s + 1) (hr.holds (s + 1) (by omega) (by omega))
      omega

example : consecutive [true, true, false, true, false, false, true, true, true] = [2, 1, 3] := by decide
example : MaximalRun [true, true, false, true] 0 2 := by
  refine ⟨by decide, ?_, .inl rfl, .inr rfl⟩
  intro i _ h
  rcases (by omega : i = 0 ∨ i = 1) with rfl | rfl <;> rfl

/-- C45 is false if every run is a single step: several of them are counted as one. -/
theorem C45_isolated_counterexample : consecutive [true, false, true, false, true] = [1] ∧
    RunLengths [true, false, true, false, true] [1, 1, 1] ∧ frequencies (consecutive [true, false, true, false, true]) = [(1, 1)] := by
  refine ⟨by decide, ?_, by decide⟩
  have := pieces_runs [true, false, true, false, true] (by decide)
  exact this

/-- C45 (some run has two steps or more): the frequencies list each length that a maximal run has, once, with the number of maximal runs of that
length, and no other length. -/
theorem C45_frequencies_partial (vec : List Bool) (i : Nat) (h1 : vec[i]? = some true) (h2 : vec[i + 1]? = some true) :
    ∃ runs : List (Nat × Nat), (∀ s len, (s, len) ∈ runs ↔ MaximalRun vec s len) ∧ runs.Nodup ∧
      (∀ d c, (d, c) ∈ frequencies (consecutive vec) ↔ (∃ s, MaximalRun vec s d) ∧ c = countRuns runs d) ∧
      ((frequencies (consecutive vec)).map (·.1)).Nodup := by
  obtain ⟨runs, g1, g2, g3⟩ := C45_durations_partial vec i h1 h2
  obtain ⟨f1, f2⟩ := frequencies_mem (consecutive vec)
  refine ⟨runs, g1, g2.imp (by rintro a b hlt rfl; omega), ?_, f2⟩
  intro d c
  rw [f1, g3]
  have hcount : (runs.map (·.2)).count d = countRuns runs d := by
    rw [List.count, List.countP_map, List.countP_eq_length_filter, countRuns]
    congr 1
  rw [hcount]
  have hmem : d ∈ runs.map (·.2) ↔ ∃ s, MaximalRun vec s d := by
    rw [List.mem_map]
    constructor
    · rintro ⟨⟨s, l⟩, hm, rfl⟩
      exact ⟨s, (g1 s l).1 hm⟩
    · rintro ⟨s, hr⟩
      exact ⟨(s, d), (g1 s d).2 hr, rfl⟩
  rw [hmem]

example : frequencies (consecutive [true, true, false, true, false, true, true]) = [(1, 1), (2, 2)] := by decide

/-- C45: the summary of more than one duration is the summary operation; that of a single one is the duration itself, whatever the operation:
the standard deviation of a single spell of five steps is reported as five. -/
theorem C45_summary {β : Type _} (op : List Nat → β) (ofNat : Nat → β) (d : Nat) (ds : List Nat) :
    (ds ≠ [] → summarise op ofNat (d :: ds) = op (d :: ds)) ∧ summarise op ofNat [d] = ofNat d := by
  refine ⟨?_, by simp [summarise]⟩
  intro h
  have : 0 < ds.length := List.length_pos_iff.2 h
  simp [summarise, this]

theorem C45_std_counterexample : summarise (fun ds => ds.map (fun _ => 0) |>.sum) id (consecutive [true, true, true, true, true]) = 5 := by decide

/-! ## C46 -/

/-- C46: the events found are real, in order, alternate between freezing and thawing, each accumulated after the one before it; and no
start is passed over unless an event under way covers it or it would repeat the last event. -/
theorem C46_events (x : List Rat) (threshold : Rat) (ht : 0 < threshold) :
    (∀ e ∈ freezeEvents x threshold, ∃ c p thaw, StartsAt x c ∧ Reaches x threshold c p thaw ∧ e = eventAt p thaw) ∧
    (∀ (k : Nat) e f, (freezeEvents x threshold)[k]? = some e → (freezeEvents x threshold)[k + 1]? = some f →
      (0 < e ↔ f < 0) ∧ e.natAbs < f.natAbs ∧ ∃ c p thaw, StartsAt x c ∧ e.natAbs ≤ c ∧ Reaches x threshold c p thaw ∧ f = eventAt p thaw) ∧
    (∀ c p thaw, StartsAt x c → Reaches x threshold c p thaw → ∃ e ∈ freezeEvents x threshold,
      (c < e.natAbs ∧ ∃ c' thaw', StartsAt x c' ∧ c' ≤ c ∧ Reaches x threshold c' e.natAbs thaw') ∨
      (e.natAbs ≤ c ∧ (0 < e ↔ thaw = true) ∧ ∀ f ∈ freezeEvents x threshold, f.natAbs ≤ c → f.natAbs ≤ e.natAbs)) := by
  obtain ⟨evs, hfold, hscan⟩ := scan_all x threshold ht
  have hev : freezeEvents x threshold = evs.reverse := by
    rw [freezeEvents, hfold, List.dropLast_concat]
  rw [hev]
  refine ⟨?_, ?_, ?_⟩
  · intro e he
    obtain ⟨c, hc, p, thaw, hr, hee⟩ := hscan.real e (List.mem_reverse.1 he)
    exact ⟨c, p, thaw, (mem_starts x c).1 hc, hr, hee⟩
  · intro k e f he hf
    have hk : k + 1 < evs.length := by
      have := (List.getElem?_eq_some_iff.1 hf).1
      simpa using this
    rw [List.getElem?_reverse (by omega)] at he hf
    obtain ⟨h1, c, hc, hle, p, thaw, hr, hfe⟩ := hscan.alternate (evs.length - 1 - (k + 1)) f e hf
      (by rw [show evs.length - 1 - (k + 1) + 1 = evs.length - 1 - k by omega]; exact he)
    obtain ⟨c0, hc0, p0, thaw0, hr0, he0⟩ := hscan.real e (List.mem_of_getElem? he)
    refine ⟨?_, ?_, c, p, thaw, (mem_starts x c).1 hc, hle, hr, hfe⟩
    · have hp := hr.later
      have hp0 := hr0.later
      rw [hfe, he0, eventAt_sign _ _ (by omega), eventAt_sign _ _ (by omega)] at h1
      rw [hfe, he0, eventAt_pos _ _ (by omega)]
      cases thaw <;> cases thaw0 <;> simp [eventAt] at h1 ⊢ <;> omega
    · have := hr.later
      rw [hfe, eventAt_natAbs]
      omega
  · intro c p thaw hs hr
    obtain ⟨e, he, hcase⟩ := hscan.complete c ((mem_starts x c).2 hs) p thaw hr
    refine ⟨e, List.mem_reverse.2 he, ?_⟩
    rcases hcase with ⟨g1, c', g2, g3, thaw', g4⟩ | ⟨g1, g2, g3⟩
    · exact .inl ⟨g1, c', thaw', (mem_starts x c').1 g2, g3, g4⟩
    · exact .inr ⟨g1, g2, fun f hf => g3 f (List.mem_reverse.1 hf)⟩

example : freezeEvents [10, 10, -3, -20, -2, 8, 9, 30] 15 = [2, -4, 7] := by decide +kernel

/-- C46 (an event is found): the index is one less than the number of events, so not negative; masked values are left out. -/
theorem C46_count_partial (x : List (Cell Rat)) (threshold : Rat) (ht : 0 < threshold) (c p : Nat) (thaw : Bool)
    (hs : StartsAt ((x.filter fun v => !v.2).map (·.1)) c) (hr : Reaches ((x.filter fun v => !v.2).map (·.1)) threshold c p thaw) :
    freezeThaw x threshold = some (((freezeEvents ((x.filter fun v => !v.2).map (·.1)) threshold).length : Int) - 1) ∧
    ∃ n : Nat, freezeThaw x threshold = some (n : Int) := by
  obtain ⟨evs, hfold, hscan⟩ := scan_all ((x.filter fun v => !v.2).map (·.1)) threshold ht
  have hall : x.all (·.2) = false := by
    cases h : x.all (·.2) with
    | false => rfl
    | true =>
      have : x.filter (fun v => !v.2) = [] := by
        rw [List.filter_eq_nil_iff]
        intro a ha
        have := List.all_eq_true.1 h a ha
        simp [this]
      have hi := hr.inside
      have hl := hr.later
      rw [this] at hi
      simp at hi
      omega
  obtain ⟨e, he, _⟩ := hscan.complete c ((mem_starts _ c).2 hs) p thaw hr
  have hpos : 0 < evs.length := List.length_pos_of_mem he
  have hv : freezeThaw x threshold = some ((evs.length : Int) - 1) := by
    rw [freezeThaw, hall, hfold]
    simp only [Bool.false_eq_true, if_false, List.length_append, List.length_singleton]
    congr 1
    omega
  rw [hv]
  refine ⟨?_, evs.length - 1, ?_⟩
  · rw [freezeEvents, hfold, List.dropLast_concat, List.length_reverse]
  · congr 1; omega

/-- C46: if the threshold is never reached from any start, the index is minus one; if no value is present it is not a number. -/
theorem C46_no_event (x : List (Cell Rat)) (threshold : Rat) (ht : 0 < threshold) :
    (x.all (·.2) = true → freezeThaw x threshold = none) ∧
    (x.all (·.2) = false → (freezeThaw x threshold = some (-1) ↔ ∀ c p thaw, StartsAt ((x.filter fun v => !v.2).map (·.1)) c →
      ¬ Reaches ((x.filter fun v => !v.2).map (·.1)) threshold c p thaw)) := by
  refine ⟨fun h => by simp [freezeThaw, h], ?_⟩
  intro hall
  constructor
  · intro h c p thaw hs hr
    obtain ⟨n, hn⟩ := (C46_count_partial x threshold ht c p thaw hs hr).2
    rw [h, Option.some.injEq] at hn
    omega
  · intro hno
    obtain ⟨evs, hfold, hscan⟩ := scan_all ((x.filter fun v => !v.2).map (·.1)) threshold ht
    have hnil : evs = [] := by
      cases evs with
      | nil => rfl
      | cons e evs =>
        obtain ⟨c, hc, p, thaw, hr, _⟩ := hscan.real e (by simp)
        exact absurd hr (hno c p thaw ((mem_starts _ c).1 hc))
    rw [freezeThaw, hall, hfold, hnil]
    rfl

/-- C46: with a threshold that is not positive the index of any series with values is minus one. -/
theorem C46_threshold_not_positive (x : List (Cell Rat)) (threshold : Rat) (ht : threshold ≤ 0) (hx : x.all (·.2) = false) :
    freezeThaw x threshold = some (-1) := by
  have hfold : ∀ (cx : List Rat) (l : List Nat), l.foldl (freezeStep cx threshold) [0] = [0] := by
    intro cx l
    induction l with
    | nil => rfl
    | cons c l ih => rw [List.foldl_cons, freezeStep_nonpos cx threshold ht c, ih]
  rw [freezeThaw, hx, hfold]
  rfl

example : freezeThaw [(5, false), (-7, false)] 0 = some (-1) := by decide +kernel

/-- C46 is false: a series that never reaches the threshold has the index minus one. -/
theorem C46_negative_counterexample : freezeThaw [(1, false), (2, false), (-1, false)] 15 = some (-1) := by decide +kernel

end Ocgis.Props
