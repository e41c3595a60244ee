import Verif.Proofs.Seasons
/-!
# Seasons and time regions

C27 sorting seasons, C28 unique seasons, C29 selection by months and years, C30 the range test.
-/
namespace Ocgis.Props
open Ocgis.Temporal Ocgis.Spec

/-! ## C27 -/

/-- C27: whatever the seasons (none empty), the result is in order, contains only seasons given, and for every season given
one that neither comes before nor after it. -/
theorem C27_ordered (useMax : Bool) (seasons : List (List Int)) (hne : ∀ s ∈ seasons, s ≠ []) :
    ∃ r, sortedSeasons useMax seasons = .ok r ∧ r.Pairwise (SeasonBefore useMax) ∧ (∀ t ∈ r, t ∈ seasons) ∧
      ∀ s ∈ seasons, ∃ t ∈ r, ¬SeasonBefore useMax s t ∧ ¬SeasonBefore useMax t s := by
  have hkm := keyMap_eq useMax seasons hne
  let m := (seasons.map fun s => (keyOf useMax s, s)).reverse
  have hm : ∀ p, p ∈ m ↔ p.2 ∈ seasons ∧ p.1 = keyOf useMax p.2 := by
    intro p
    simp only [m, List.mem_reverse, List.mem_map]
    constructor
    · rintro ⟨s, hs, rfl⟩; exact ⟨hs, rfl⟩
    · rintro ⟨h1, h2⟩; exact ⟨p.2, h1, by rw [← h2]⟩
  have hr : sortedSeasons useMax seasons = .ok ((unique (m.map (·.1))).map fun k => (m.lookup k).getD []) := by
    simp only [sortedSeasons]; rw [hkm]; rfl
  have hval : ∀ k ∈ unique (m.map (·.1)), (m.lookup k).getD [] ∈ seasons ∧ keyOf useMax ((m.lookup k).getD []) = k := by
    intro k hk
    rw [mem_unique] at hk
    obtain ⟨v, h1, h2⟩ := lookup_mem m k hk
    rw [h1]
    exact ⟨((hm _).1 h2).1, ((hm _).1 h2).2.symm⟩
  refine ⟨_, hr, ?_, ?_, ?_⟩
  · rw [List.pairwise_map]
    refine List.Pairwise.imp_of_mem ?_ (unique_sorted (m.map (·.1)))
    intro a b ha hb hab
    obtain ⟨a1, a2⟩ := hval a ha
    obtain ⟨b1, b2⟩ := hval b hb
    rw [before_iff _ _ _ (hne _ a1) (hne _ b1), a2, b2]
    exact hab
  · intro t ht
    obtain ⟨k, hk, rfl⟩ := List.mem_map.1 ht
    exact (hval k hk).1
  · intro s hs
    have hk : keyOf useMax s ∈ unique (m.map (·.1)) := by
      rw [mem_unique]; exact List.mem_map.2 ⟨(keyOf useMax s, s), (hm _).2 ⟨hs, rfl⟩, rfl⟩
    obtain ⟨a1, a2⟩ := hval _ hk
    refine ⟨_, List.mem_map.2 ⟨_, hk, rfl⟩, ?_, ?_⟩
    · rw [before_iff _ _ _ (hne _ hs) (hne _ a1)]; omega
    · rw [before_iff _ _ _ (hne _ a1) (hne _ hs)]; omega

/-- C27 (partial: the seasons are not empty and no two of them end (`max`) or begin (`min`) with the same month): the
result contains exactly the seasons given, in order. -/
theorem C27_permutation_partial (useMax : Bool) (seasons : List (List Int)) (hne : ∀ s ∈ seasons, s ≠ [])
    (hdist : seasons.Pairwise fun s t => SeasonBefore useMax s t ∨ SeasonBefore useMax t s) :
    ∃ r, sortedSeasons useMax seasons = .ok r ∧ r.Perm seasons ∧ r.Pairwise (SeasonBefore useMax) := by
  obtain ⟨r, h1, h2, h3, h4⟩ := C27_ordered useMax seasons hne
  refine ⟨r, h1, ?_, h2⟩
  have irr : ∀ s ∈ seasons, ¬SeasonBefore useMax s s := by
    intro s hs; rw [before_iff _ _ _ (hne s hs) (hne s hs)]; omega
  have hnd : seasons.Nodup := by
    refine List.Pairwise.imp_of_mem ?_ hdist
    intro s t hs ht h he
    subst he
    rcases h with h | h <;> exact irr _ hs h
  have hrn : r.Nodup := by
    refine List.Pairwise.imp_of_mem ?_ h2
    intro s t hs ht h he
    subst he
    exact irr _ (h3 _ hs) h
  rw [List.perm_ext_iff_of_nodup hrn hnd]
  intro s
  refine ⟨h3 s, ?_⟩
  intro hs
  obtain ⟨t, ht, e1, e2⟩ := h4 s hs
  have hts := h3 t ht
  obtain ⟨i, hi⟩ := List.mem_iff_getElem?.1 hs
  obtain ⟨j, hj⟩ := List.mem_iff_getElem?.1 hts
  obtain ⟨hi1, hi2⟩ := List.getElem?_eq_some_iff.1 hi
  obtain ⟨hj1, hj2⟩ := List.getElem?_eq_some_iff.1 hj
  have hp := List.pairwise_iff_getElem.1 hdist
  rcases Nat.lt_trichotomy i j with h | h | h
  · rcases hp i j hi1 hj1 h with h | h
    · rw [hi2, hj2] at h; exact absurd h e1
    · rw [hi2, hj2] at h; exact absurd h e2
  · subst h
    rw [hi2] at hj2
    rw [hj2]; exact ht
  · rcases hp j i hj1 hi1 h with h | h
    · rw [hi2, hj2] at h; exact absurd h e2
    · rw [hi2, hj2] at h; exact absurd h e1

example : sortedSeasons true [[9, 10, 11], [12, 1, 2], [6, 7, 8]] = .ok [[6, 7, 8], [9, 10, 11], [12, 1, 2]] := by decide
example : [[9, 10, 11], [12, 1, 2], [6, 7, 8]].Pairwise (fun s t => SeasonBefore true s t ∨ SeasonBefore true t s) := by
  simp [SeasonBefore]

/-- C27 is false: two seasons ending with the same month are sorted into one. -/
theorem C27_counterexample : ∃ seasons r, sortedSeasons true seasons = .ok r ∧ ¬ r.Perm seasons :=
  ⟨[[12, 1, 2], [10, 11, 12]], [[10, 11, 12]], by decide, by
    intro h; have := h.length_eq; simp at this⟩

/-! ## C28 -/

/-- C28 (partial: consecutive years; seasons of consecutive months; more than one year if a season goes over the turn of the
year; and at most one season-year with no data at all in one of its years): the groups are exactly those of the complete
seasons, in order of year and season, and each group holds exactly the time steps of its season. -/
theorem C28_complete_partial (seasons : List (List Int)) (dates : List Date) (years : List Int)
    (hyears : ∀ y, y ∈ years ↔ ∃ d ∈ dates, d.year = y)
    (hcons : ∀ (i : Nat) y z, years[i]? = some y → years[i + 1]? = some z → z = y + 1)
    (hok : ∀ s ∈ seasons, SeasonOk s)
    (hone : years.length > 1 ∨ ∀ s ∈ seasons, wraps s = false)
    (hgap : ((seasonYears years seasons).filter (noData dates years)).length ≤ 1) :
    uniqueSeasons seasons dates = .ok (((seasonYears years seasons).filter fun c => seasonComplete dates c.1 c.2).map
      fun c => seasonGroup dates c.1 c.2) := by
  have hsorted : years.Pairwise (· < ·) := by
    have hstep : ∀ (k i : Nat) (hi : i < years.length) (hk : i + k < years.length), years[i + k] = years[i] + k := by
      intro k
      induction k with
      | zero => intro i hi hk; simp
      | succ k ih =>
        intro i hi hk
        have := hcons (i + k) _ _ (List.getElem?_eq_getElem (by omega)) (List.getElem?_eq_getElem (by omega : i + k + 1 < years.length))
        have h2 := ih i hi (by omega)
        rw [h2] at this
        have e : years[i + (k + 1)] = years[i + k + 1] := rfl
        rw [e, this]; omega
    rw [List.pairwise_iff_getElem]
    intro i j hi hj hij
    have := hstep (j - i) i hi (by omega)
    have e : years[i + (j - i)]'(by omega) = years[j] := by
      congr 1; omega
    rw [e] at this; omega
  have hyu : years = unique (dates.map (·.year)) := by
    apply List.Perm.eq_of_pairwise (le := (· < ·)) _ hsorted (unique_sorted _)
    · rw [List.perm_ext_iff_of_nodup (hsorted.imp (by intro a b h; omega)) (unique_nodup _)]
      intro y
      rw [hyears, mem_unique, List.mem_map]
    · intro a b _ _ h1 h2; omega
  obtain ⟨f, hraw, hf⟩ := rawRegions_eq seasons dates years hyu hcons hok hone
  obtain ⟨hlen, hbg⟩ := groups_of_candidates dates years f _ hf
  have htr : timeRegions seasons dates false = .ok (((seasonYears years seasons).filterMap f).filter fun r => !regionEmpty dates r) := by
    simp only [timeRegions]
    rw [← hyu, hraw]
    show popAll _ _ = _
    have := filter_range_length ((seasonYears years seasons).filterMap f) (regionEmpty dates)
    have h2 := popAll_le_one ((seasonYears years seasons).filterMap f) (regionEmpty dates) (by omega)
    rw [← h2]
    simp only [removeIndices]
    congr 2
    funext i
    generalize ((seasonYears years seasons).filterMap f)[i]? = o
    cases o <;> rfl
  simp only [uniqueSeasons]
  rw [htr]
  exact hbg

/-- Two years of monthly data from December: winter 2000/01 and both springs are complete. -/
def demoDates : List Date :=
  [⟨2000, 3, 16, 0, 0, 0⟩, ⟨2000, 4, 16, 0, 0, 0⟩, ⟨2000, 5, 16, 0, 0, 0⟩, ⟨2000, 12, 16, 0, 0, 0⟩, ⟨2001, 1, 16, 0, 0, 0⟩,
   ⟨2001, 2, 16, 0, 0, 0⟩, ⟨2001, 3, 16, 0, 0, 0⟩]

example : uniqueSeasons [[3, 4, 5], [12, 1, 2]] demoDates =
    .ok [[true, true, true, false, false, false, false], [false, false, false, true, true, true, false]] := by decide
example : ((seasonYears [2000, 2001] [[3, 4, 5], [12, 1, 2]]).filter (noData demoDates [2000, 2001])).length ≤ 1 := by decide
example : ((seasonYears [2000, 2001] [[3, 4, 5], [12, 1, 2]]).filter fun c => seasonComplete demoDates c.1 c.2) =
    [(2000, [3, 4, 5]), (2000, [12, 1, 2])] := by decide
example : SeasonOk [12, 1, 2] := by
  refine ⟨by simp, .inr (.inr ⟨2, 12, by omega, by omega, by omega, ?_⟩)⟩
  intro m; simp; omega

/-- C28 is false: with two season-years without data, complete seasons are lost (here the whole selection fails). -/
theorem C28_removal_counterexample : ∃ seasons dates y s,
    s ∈ seasons ∧ seasonComplete dates y s = true ∧ uniqueSeasons seasons dates = .error .emptySubset :=
  ⟨[[3, 4, 5], [6, 7, 8]],
    ⟨2000, 1, 1, 0, 0, 0⟩ :: [3, 4, 5, 6, 7, 8].map fun m => ⟨2001, m, 1, 0, 0, 0⟩, 2001, [3, 4, 5], by decide, by decide, by decide⟩

/-- C28 is false: with a year missing, December of one year and January and February of a later one make a season. -/
theorem C28_year_gap_counterexample : ∃ dates : List Date,
    (∀ y, seasonComplete dates y [12, 1, 2] = false) ∧ uniqueSeasons [[12, 1, 2]] dates = .ok [[true, true, true]] := by
  refine ⟨[⟨2000, 12, 1, 0, 0, 0⟩, ⟨2003, 1, 1, 0, 0, 0⟩, ⟨2003, 2, 1, 0, 0, 0⟩], ?_, by decide⟩
  intro y
  have hw : wraps [12, 1, 2] = true := by decide
  have h12 : afterNewYear [12, 1, 2] 12 = false := by decide
  have h1 : afterNewYear [12, 1, 2] 1 = true := by decide
  rw [← Bool.not_eq_true]
  simp only [seasonComplete, seasonMonths, hw, List.map_cons, h12, h1, List.all_cons, Bool.and_eq_true]
  simp
  omega

/-- C28 is false: within one year, December and the January and February before it make a season. -/
theorem C28_single_year_counterexample : ∃ dates : List Date,
    (∀ y, seasonComplete dates y [12, 1, 2] = false) ∧ uniqueSeasons [[12, 1, 2]] dates = .ok [[true, true, true]] := by
  refine ⟨[⟨2000, 1, 1, 0, 0, 0⟩, ⟨2000, 2, 1, 0, 0, 0⟩, ⟨2000, 12, 1, 0, 0, 0⟩], ?_, by decide⟩
  intro y
  have hw : wraps [12, 1, 2] = true := by decide
  have h12 : afterNewYear [12, 1, 2] 12 = false := by decide
  have h1 : afterNewYear [12, 1, 2] 1 = true := by decide
  rw [← Bool.not_eq_true]
  simp only [seasonComplete, seasonMonths, hw, List.map_cons, h12, h1, List.all_cons, Bool.and_eq_true]
  simp
  omega

/-! ## C29 -/

/-- C29: the time steps kept are exactly those among the months and years asked for, in their order. -/
theorem C29_exact (dates : List Date) (r : Region) (idx : List Nat) (h : timeRegion dates r = .ok idx) :
    (∀ i : Nat, i ∈ idx ↔ ∃ d, dates[i]? = some d ∧ Wanted r.month r.year d) ∧ idx.Pairwise (· < ·) := by
  unfold timeRegion at h
  split at h
  · cases h
  · have hm := mem_regionIdx dates r
    have : idx = regionIdx dates r := by
      simp only at h
      split at h
      · cases h
      · injection h with h; exact h.symm
    subst this
    refine ⟨fun i => by rw [hm]; simp only [holds_wanted], ?_⟩
    exact List.Pairwise.filter _ List.pairwise_lt_range

/-- C29: if nothing is left the selection fails, and otherwise it does not; with neither months nor years it is refused. -/
theorem C29_refused (dates : List Date) (r : Region) :
    (r.month = none ∧ r.year = none → timeRegion dates r = .error .assertionError) ∧
    (¬(r.month = none ∧ r.year = none) →
      ((∃ d ∈ dates, Wanted r.month r.year d) → ∃ idx, timeRegion dates r = .ok idx) ∧
      ((¬∃ d ∈ dates, Wanted r.month r.year d) → timeRegion dates r = .error .emptySubset)) := by
  refine ⟨fun h => by unfold timeRegion; rw [if_pos h], fun h => ?_⟩
  have e : timeRegion dates r = if regionIdx dates r = [] then .error .emptySubset else .ok (regionIdx dates r) := by
    unfold timeRegion; rw [if_neg h]; rfl
  rw [e]
  refine ⟨?_, ?_⟩
  · rintro ⟨d, hd, hw⟩
    obtain ⟨i, hi⟩ := List.mem_iff_getElem?.1 hd
    have : i ∈ regionIdx dates r := (mem_regionIdx _ _ _).2 ⟨d, hi, (holds_wanted _ _).2 hw⟩
    rw [if_neg (by intro hn; rw [hn] at this; simp at this)]
    exact ⟨_, rfl⟩
  · intro hno
    rw [if_pos]
    rw [List.eq_nil_iff_forall_not_mem]
    intro i hi
    obtain ⟨d, hd, hh⟩ := (mem_regionIdx _ _ _).1 hi
    exact hno ⟨d, List.mem_of_getElem? hd, (holds_wanted _ _).1 hh⟩

example : timeRegion demoDates { month := some [3, 12], year := some [2000] } = .ok [0, 3] := by decide

/-- C29, cells with bounds (partial: cells of one month at most): the cells kept are exactly those beginning in one of the
months and years asked for, in their order. -/
theorem C29_cells_partial (bounds : List (Date × Date)) (hb : ∀ b ∈ bounds, WithinMonth b) (r : Region) (idx : List Nat)
    (h : timeRegionBounds bounds r = .ok idx) :
    (∀ i : Nat, i ∈ idx ↔ ∃ b, bounds[i]? = some b ∧ Wanted r.month r.year b.1) ∧ idx.Pairwise (· < ·) := by
  have hrow : ∀ b ∈ bounds, (r.holdsBounds b = true ↔ Wanted r.month r.year b.1) := by
    intro b hbm
    obtain ⟨h1, h2, h3⟩ := hb b hbm
    have hm : ∀ t, (1 ≤ t ∧ t ≤ 12 ∨ True) → (partBetween b.1.month b.2.month t = true ↔ t = b.1.month) := by
      intro t _
      rcases h3 with ⟨_, h, _⟩ | ⟨e1, e2, _⟩
      · exact partBetween_within _ _ _ h
      · rw [e1, e2]
        unfold partBetween
        simp only [Int.reduceEq, ne_eq, not_false_eq_true, if_true, Bool.and_eq_true, decide_eq_true_eq]
        rw [if_pos (by omega)]; omega
    have hy : ∀ t, partBetween b.1.year b.2.year t = true ↔ t = b.1.year := by
      intro t
      apply partBetween_within
      rcases h3 with ⟨e, _⟩ | ⟨_, _, e⟩
      · exact .inl e
      · exact .inr e
    obtain ⟨m, y⟩ := r
    cases m <;> cases y <;> simp [Region.holdsBounds, Wanted, hm, hy]
  unfold timeRegionBounds at h
  split at h
  · cases h
  · simp only at h
    split at h
    · cases h
    · injection h with h
      subst h
      refine ⟨?_, List.Pairwise.filter _ List.pairwise_lt_range⟩
      intro i
      simp only [List.mem_filter, List.mem_range]
      constructor
      · rintro ⟨hi, h⟩
        rw [List.getElem?_eq_getElem hi] at h ⊢
        exact ⟨_, rfl, (hrow _ (List.getElem_mem hi)).1 h⟩
      · rintro ⟨b, hd, h⟩
        refine ⟨(List.getElem?_eq_some_iff.1 hd).1, ?_⟩
        rw [hd]; exact (hrow b (List.mem_of_getElem? hd)).2 h

example : ∃ idx, timeRegionBounds [(⟨2000, 11, 1, 0, 0, 0⟩, ⟨2000, 12, 1, 0, 0, 0⟩), (⟨2000, 12, 1, 0, 0, 0⟩, ⟨2001, 1, 1, 0, 0, 0⟩)]
    { month := some [12] } = .ok idx ∧ idx = [1] := ⟨_, by decide, rfl⟩
example : WithinMonth (⟨2000, 12, 1, 0, 0, 0⟩, ⟨2001, 1, 1, 0, 0, 0⟩) := by simp [WithinMonth]

/-- C29 with longer cells is false: a cell from December to March is not kept when January is asked for, although a
December-to-March range contains January. -/
theorem C29_cells_counterexample : ∃ bounds : List (Date × Date), ∃ r : Region,
    bounds = [(⟨2000, 12, 1, 0, 0, 0⟩, ⟨2001, 3, 1, 0, 0, 0⟩)] ∧ r = { month := some [1] } ∧
      timeRegionBounds bounds r = .error .emptySubset := ⟨_, _, rfl, rfl, by decide⟩

/-! ## C30 -/

/-- C30 (partial: the range does not go over the end of the year). For years the range never does. -/
theorem C30_range_partial (lower upper t : Int) (h : lower ≤ upper) :
    partBetween lower upper t = true ↔ MonthInRange lower upper t := by
  unfold partBetween MonthInRange
  by_cases he : lower = upper
  · subst he; simp; omega
  · have h1 : lower < upper := by omega
    have h2 : ¬lower > upper := by omega
    simp [he, h1, h2]

/-- C30, range over the end of the year: only the part before the end of the year is accepted. -/
theorem C30_crossing (lower upper t : Int) (h : upper < lower) (hu : 1 ≤ upper) (ht : t ≤ 12) :
    partBetween lower upper t = true ↔ lower ≤ t := by
  unfold partBetween
  rw [if_pos (by omega)]
  simp only [Bool.and_eq_true, decide_eq_true_eq]
  rw [if_pos (by omega)]; omega

example : partBetween 11 2 12 = true := by decide
example : MonthInRange 3 6 5 := by simp [MonthInRange]

/-- C30 is false: January lies between December and March, but is not accepted. -/
theorem C30_crossing_counterexample : ∃ lower upper t : Int,
    1 ≤ t ∧ t ≤ 12 ∧ MonthInRange lower upper t ∧ partBetween lower upper t = false :=
  ⟨12, 3, 1, by omega, by omega, by simp [MonthInRange], by decide⟩

end Ocgis.Props
