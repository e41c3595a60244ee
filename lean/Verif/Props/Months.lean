import Verif.Proofs.Temporal
/-!
# C25, C26: month arithmetic and grouping by date parts
-/
namespace Ocgis.Props
open Ocgis.Temporal Ocgis.Spec

/-! ### C25 -/

/-- C25: whatever the offsets, every date returned is the origin shifted by exactly the given number of calendar months:
twelve times its year plus its month is that of the origin plus the offset. -/
theorem C25_exact_shift (origin : Date) (vec : List Int) (centroid : Int) (ds : List Date)
    (h : datesFromMonths origin vec centroid = .ok ds) : ds.length = vec.length ∧
    ∀ (i : Nat) d v, ds[i]? = some d → vec[i]? = some v →
      12 * d.year + (d.month - 1) = 12 * origin.year + (origin.month - 1) + v ∧ 1 ≤ d.month ∧ d.month ≤ 12 ∧
        d.day = centroid := by
  unfold datesFromMonths at h
  cases vec with
  | nil => cases h
  | cons v0 vs =>
    simp only at h
    obtain ⟨h1, h2⟩ := monthLoop_ok _ _ _ _ _ _ h
    refine ⟨by simpa using h1, ?_⟩
    intro i d v hd hv
    obtain ⟨g1, g2, g3, g4⟩ := h2 i d _ hd (by rw [List.getElem?_map, hv]; rfl)
    simp only [ordinal] at g1
    exact ⟨by omega, g2, g3, g4⟩

/-- C25, partial (offsets must start non-negative and never fall or jump by more than a year; see the counterexamples):
such a vector is always converted, as long as the dates stay before the year 10000. -/
theorem C25_converts_partial (origin : Date) (v0 : Int) (vs : List Int) (centroid : Int) (hm : 1 ≤ origin.month ∧ origin.month ≤ 12)
    (hy : 1 ≤ origin.year) (h0 : 0 ≤ v0) (hsteps : SmallSteps (v0 :: vs))
    (hmax : ∀ v ∈ v0 :: vs, 12 * origin.year + (origin.month - 1) + v < 12 * 10000) :
    ∃ ds, datesFromMonths origin (v0 :: vs) centroid = .ok ds := by
  unfold datesFromMonths
  simp only
  have hq : 0 ≤ v0 / 12 := Int.ediv_nonneg h0 (by omega)
  have key : ∀ q : Int, 0 ≤ q → (0 ≤ v0 - q * 12 ∧ v0 - q * 12 ≤ 11) →
      ∃ ds, monthLoop origin.month centroid (origin.year + q) 0 ((v0 :: vs).map fun v => v - q * 12) = .ok ds := by
    intro q hq hr
    apply monthLoop_possible origin.month centroid (12 * (origin.year + q))
    · omega
    · intro w hw
      obtain ⟨v, hv, rfl⟩ := List.mem_map.1 hw
      have := hmax v hv
      omega
    · have : ∀ l : List Int, SmallSteps l → SmallSteps (l.map fun v => v - q * 12) := by
        intro l
        induction l with
        | nil => intro _; exact trivial
        | cons a l ih =>
          intro h
          cases l with
          | nil => exact trivial
          | cons b l =>
            have h1 := h.1
            have h2 := h.2.1
            exact ⟨by show a - q * 12 ≤ b - q * 12; omega, by show b - q * 12 ≤ a - q * 12 + 12; omega, ih h.2.2⟩
      exact this _ hsteps
    · omega
    · intro w hw
      simp only [List.map_cons, List.head?_cons, Option.some.injEq] at hw
      omega
  split
  · exact key (v0 / 12) hq (by omega)
  · exact key 0 (by omega) (by omega)

example : SmallSteps [13, 14, 26] := ⟨by omega, by omega, by omega, by omega, trivial⟩
example :
    datesFromMonths ⟨1978, 12, 1, 0, 0, 0⟩ [13, 14, 26] = .ok [⟨1980, 1, 16, 0, 0, 0⟩, ⟨1980, 2, 16, 0, 0, 0⟩, ⟨1981, 2, 16, 0, 0, 0⟩] := by
  decide

/-- C25 counterexamples: a gap of two years, a decreasing vector over a year boundary and a negative offset are all
refused. -/
theorem C25_converts_counterexample :
    datesFromMonths ⟨2000, 1, 1, 0, 0, 0⟩ [0, 24] = .error .valueError ∧
    datesFromMonths ⟨2000, 1, 1, 0, 0, 0⟩ [0, 12, 0] = .error .valueError ∧
    datesFromMonths ⟨2000, 1, 1, 0, 0, 0⟩ [-1, 0] = .error .valueError := by decide

/-- C25: the month difference terminates and is twelve times the year difference plus the month difference. -/
theorem C25_difference (a b : Date) (ha : 1 ≤ a.month ∧ a.month ≤ 12) (hb : 1 ≤ b.month ∧ b.month ≤ 12) :
    ∃ turns, ∀ fuel, turns ≤ fuel →
      differenceInMonths fuel a b = some (12 * (b.year - a.year) + (b.month - a.month)) := by
  refine ⟨(ordinal b - ordinal a).natAbs + 1, ?_⟩
  intro fuel hf
  rw [differenceInMonths_eq a b ha hb fuel hf]
  unfold ordinal
  congr 1
  omega

example : differenceInMonths 100 ⟨1978, 12, 1, 0, 0, 0⟩ ⟨1978, 7, 1, 0, 0, 0⟩ = some (-5) := by decide

/-- C25: converting months to dates and back is the identity. -/
theorem C25_round_trip (origin : Date) (vec : List Int) (centroid : Int) (hm : 1 ≤ origin.month ∧ origin.month ≤ 12)
    (ds : List Date) (h : datesFromMonths origin vec centroid = .ok ds) :
    ∃ turns, ∀ fuel, turns ≤ fuel → monthsFromDates fuel origin ds = some vec := by
  obtain ⟨hlen, hall⟩ := C25_exact_shift origin vec centroid ds h
  clear h
  unfold monthsFromDates
  induction vec generalizing ds with
  | nil =>
    have : ds = [] := List.eq_nil_of_length_eq_zero (by simpa using hlen)
    subst this
    exact ⟨0, fun _ _ => rfl⟩
  | cons v vec ih =>
    cases ds with
    | nil => simp at hlen
    | cons d ds =>
      obtain ⟨t, ht⟩ := ih ds (by simpa using hlen) (fun i e w he hw => hall (i + 1) e w (by simpa using he) (by simpa using hw))
      obtain ⟨h1, h2, h3, _⟩ := hall 0 d v rfl rfl
      refine ⟨max t ((ordinal d - ordinal origin).natAbs + 1), ?_⟩
      intro fuel hf
      rw [List.mapM_cons, differenceInMonths_eq origin d hm ⟨h2, h3⟩ fuel (by omega), ht fuel (by omega)]
      have : ordinal d - ordinal origin = v := by unfold ordinal; omega
      rw [this]
      rfl

/-! ### C26 -/

/-- C26: every time step is in exactly one group. -/
theorem C26_one_group (dates : List Date) (grouping : List Nat) (hg : ∀ k ∈ grouping, k < 6) (i : Nat) (hi : i < dates.length) :
    ∃ n : Nat, (∃ g, (groups dates grouping)[n]? = some g ∧ g.2[i]? = some true) ∧
      ∀ m : Nat, (∃ g, (groups dates grouping)[m]? = some g ∧ g.2[i]? = some true) → m = n := by
  have hr : (dates.map Date.parts)[i]? = some dates[i].parts := by rw [List.getElem?_map, List.getElem?_eq_getElem hi]; rfl
  have hmem := rowCandidate_mem (dates.map Date.parts) grouping dates[i].parts (List.mem_of_getElem? hr)
  have hin : (groupMembers (dates.map Date.parts) grouping (rowCandidate grouping dates[i].parts))[i]? = some true := by
    rw [groupMembers_get _ _ _ i _ hr]
    intro k hk
    rw [List.getD_eq_getElem?_getD]
    simp only [rowCandidate, List.getElem?_map]
    rw [List.getElem?_range (hg k hk)]
    simp only [Option.map_some, Option.getD_some]
    rw [if_pos hk]
  have hgrp : (rowCandidate grouping dates[i].parts, groupMembers (dates.map Date.parts) grouping (rowCandidate grouping dates[i].parts))
      ∈ groups dates grouping := (groups_mem _ _ _).2 ⟨hmem, rfl, List.mem_of_getElem? hin⟩
  obtain ⟨n, hn⟩ := List.getElem?_of_mem hgrp
  refine ⟨n, ⟨_, hn, hin⟩, ?_⟩
  rintro m ⟨g, hm, hgi⟩
  obtain ⟨h1, h2, h3⟩ := (groups_mem _ _ _).1 (List.mem_of_getElem? hm)
  rw [h2, groupMembers_get _ _ _ i _ hr] at hgi
  have he := candidate_eq _ _ _ h1 _ hgi
  have hnd := groups_nodup dates grouping
  have e1 : ((groups dates grouping).map (·.1))[m]? = some (rowCandidate grouping dates[i].parts) := by
    rw [List.getElem?_map, hm]; simp [he]
  have e2 : ((groups dates grouping).map (·.1))[n]? = some (rowCandidate grouping dates[i].parts) := by
    rw [List.getElem?_map, hn]; rfl
  have l1 := (List.getElem?_eq_some_iff.1 e1).1
  exact (List.getElem?_inj l1 hnd).1 (e1.trans e2.symm)

/-- C26: two time steps share a group exactly when they agree on all grouping parts. -/
theorem C26_same_group (dates : List Date) (grouping : List Nat) (hg : ∀ k ∈ grouping, k < 6) (i j : Nat) (a b : Date)
    (ha : dates[i]? = some a) (hb : dates[j]? = some b) :
    (∃ g ∈ groups dates grouping, g.2[i]? = some true ∧ g.2[j]? = some true) ↔ SameParts grouping a b := by
  have hra : (dates.map Date.parts)[i]? = some a.parts := by rw [List.getElem?_map, ha]; rfl
  have hrb : (dates.map Date.parts)[j]? = some b.parts := by rw [List.getElem?_map, hb]; rfl
  constructor
  · rintro ⟨g, hgm, hi, hj⟩
    obtain ⟨h1, h2, _⟩ := (groups_mem _ _ _).1 hgm
    rw [h2, groupMembers_get _ _ _ i _ hra] at hi
    rw [h2, groupMembers_get _ _ _ j _ hrb] at hj
    intro k hk
    have := (hi k hk).symm.trans (hj k hk)
    exact Option.some.inj this
  · intro hs
    have hil := (List.getElem?_eq_some_iff.1 ha).1
    obtain ⟨n, ⟨g, hn, hgi⟩, _⟩ := C26_one_group dates grouping hg i hil
    have hgm := List.mem_of_getElem? hn
    refine ⟨g, hgm, hgi, ?_⟩
    obtain ⟨h1, h2, _⟩ := (groups_mem _ _ _).1 hgm
    rw [h2, groupMembers_get _ _ _ i _ hra] at hgi
    rw [h2, groupMembers_get _ _ _ j _ hrb]
    intro k hk
    rw [hgi k hk, hs k hk]

/-- C26: no group is empty, and every group says for each time step whether it belongs. -/
theorem C26_no_empty_group (dates : List Date) (grouping : List Nat) (g : List (Option Int) × List Bool)
    (hg : g ∈ groups dates grouping) : g.2.length = dates.length ∧ ∃ i : Nat, g.2[i]? = some true := by
  obtain ⟨_, h2, h3⟩ := (groups_mem _ _ _).1 hg
  refine ⟨by rw [h2]; simp [groupMembers], List.getElem?_of_mem h3⟩

example : (groups [⟨2000, 1, 1, 0, 0, 0⟩, ⟨2000, 2, 1, 0, 0, 0⟩, ⟨2001, 1, 5, 0, 0, 0⟩] [1]).map (·.2)
    = [[true, false, true], [false, true, false]] := by decide

end Ocgis.Props
