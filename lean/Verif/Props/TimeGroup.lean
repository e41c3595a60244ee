import Verif.Proofs.TimeGroup
import Verif.Props.Months
import Verif.Props.Seasons

/-! # C95: grouped times -/

namespace Ocgis.Props
open Ocgis Ocgis.Temporal Ocgis.TimeGroup Ocgis.Spec

theorem indices_lt (names : List String) (h : Groupable names) : ∀ k ∈ names.map partNames.idxOf, k < 3 := by
  intro k hk
  obtain ⟨n, hn, rfl⟩ := List.mem_map.1 hk
  rcases h.2 n hn with rfl | rfl | rfl <;> decide

theorem index_mem (names : List String) (h : Groupable names) :
    (0 ∈ names.map partNames.idxOf ↔ "year" ∈ names) ∧ (1 ∈ names.map partNames.idxOf ↔ "month" ∈ names) ∧
    (2 ∈ names.map partNames.idxOf ↔ "day" ∈ names) := by
  have key : ∀ (k : Nat) (m : String), (m = "year" ∨ m = "month" ∨ m = "day") → partNames.idxOf m = k →
      (k ∈ names.map partNames.idxOf ↔ m ∈ names) := by
    intro k m hm hk
    constructor
    · intro hin
      obtain ⟨n, hn, he⟩ := List.mem_map.1 hin
      have : n = m := by
        rw [← hk] at he
        rcases h.2 n hn with rfl | rfl | rfl <;> rcases hm with rfl | rfl | rfl <;> first | rfl | exact absurd he (by decide)
      rw [← this]; exact hn
    · intro hin
      exact List.mem_map.2 ⟨m, hin, hk⟩
  exact ⟨key 0 "year" (by simp) (by decide), key 1 "month" (by simp) (by decide), key 2 "day" (by simp) (by decide)⟩

/-- The groups by parts, one for each group of times. -/
theorem partsGroups_index (t : TimeVar) (names : List String) (hs : Sound t) (hn : Groupable names) :
    ∃ gs, partsGroups t names = .ok gs ∧ gs.length = (groups t.dates (names.map partNames.idxOf)).length ∧
      ∀ (k : Nat) (g : List (Option Int) × List Bool) (g' : Group), (groups t.dates (names.map partNames.idxOf))[k]? = some g → gs[k]? = some g' →
        g'.members = g.2 ∧ g'.label = .parts g.1 ∧ Covers t g.2 g'.bounds ∧ partsTime names g'.bounds.1 g.1 = .ok g'.time := by
  unfold partsGroups
  rw [partIndices_ok names hn]
  refine mapM_index _ (fun (g : List (Option Int) × List Bool) (g' : Group) => g'.members = g.2 ∧ g'.label = .parts g.1 ∧ Covers t g.2 g'.bounds ∧ partsTime names g'.bounds.1 g.1 = .ok g'.time) _ ?_
  intro g hg
  obtain ⟨hlen, i, hi⟩ := member_lt _ _ g hg
  obtain ⟨c, hc⟩ := timeCell_some t hs i (by rw [← hlen]; exact (List.getElem?_eq_some_iff.1 hi).1)
  obtain ⟨b, hb, hcov⟩ := groupBounds_spec t g.2 ⟨i, c, hi, hc⟩
  obtain ⟨r, hr, -⟩ := partsTime_ok names hn b.1 g.1
  refine ⟨⟨g.2, b, r, .parts g.1⟩, ?_, rfl, rfl, hcov, hr⟩
  unfold partsGroup
  rw [hb]
  simp only
  rw [hr]

/-- C95 (date parts).  Grouping by years, months and days puts every time in exactly one group, with those that have the same parts; no
group is empty; the bounds of a group are the first and the last bound of its times; and the representative time has the parts of the
times of the group.  The representatives differ from group to group. -/
theorem C95_parts (t : TimeVar) (names : List String) (hs : Sound t) (hn : Groupable names) :
    ∃ v, getGrouping t (.parts names) = .ok v ∧ Partitioned t.dates.length v.groups ∧
      (∀ g ∈ v.groups, g.members.length = t.dates.length ∧ (∃ i, Member g i) ∧ Covers t g.members g.bounds ∧
        ∀ i d, t.dates[i]? = some d → Member g i →
          AgreeOn names g.time d ∧ ∀ j e, t.dates[j]? = some e → (Member g j ↔ AgreeOn names d e)) ∧
      v.groups.Pairwise (fun g h => g.time ≠ h.time) := by
  obtain ⟨gs, h1, h2, h3⟩ := partsGroups_index t names hs hn
  have hlt := indices_lt names hn
  have hne : t.dates.isEmpty = false := by
    cases hd : t.dates with
    | nil => exact absurd hd hs.1
    | cons _ _ => rfl
  have hgrp : ∀ (k : Nat) g', gs[k]? = some g' → ∃ g, (groups t.dates (names.map partNames.idxOf))[k]? = some g := by
    intro k g' hk
    have := (List.getElem?_eq_some_iff.1 hk).1
    exact ⟨_, List.getElem?_eq_getElem (by omega)⟩
  have hpart : Partitioned t.dates.length gs := by
    intro i hi
    obtain ⟨n, ⟨g, hg, hgi⟩, huniq⟩ := C26_one_group t.dates (names.map partNames.idxOf) (fun k hk => by have := hlt k hk; omega) i hi
    have hn' := (List.getElem?_eq_some_iff.1 hg).1
    have hk : gs[n]? = some (gs[n]'(by omega)) := List.getElem?_eq_getElem (by omega)
    refine ⟨n, _, hk, ?_, ?_⟩
    · unfold Member
      rw [(h3 n g _ hg hk).1]
      exact hgi
    · intro k' g' hg' hm
      obtain ⟨g0, hg0⟩ := hgrp k' g' hg'
      refine huniq k' ⟨g0, hg0, ?_⟩
      rw [← (h3 k' g0 g' hg0 hg').1]
      exact hm
  have hall : ∀ g ∈ gs, g.members.length = t.dates.length ∧ (∃ i, Member g i) ∧ Covers t g.members g.bounds ∧
        ∀ i d, t.dates[i]? = some d → Member g i →
          AgreeOn names g.time d ∧ ∀ j e, t.dates[j]? = some e → (Member g j ↔ AgreeOn names d e) := by
    intro g' hg'
    obtain ⟨k, hk⟩ := List.mem_iff_getElem?.1 hg'
    obtain ⟨g, hg⟩ := hgrp k g' hk
    obtain ⟨e1, -, e3, e4⟩ := h3 k g g' hg hk
    have hgm := List.mem_of_getElem? hg
    obtain ⟨hlen, i0, hi0⟩ := member_lt _ _ g hgm
    obtain ⟨r, hr, r1, r2, r3, -⟩ := partsTime_ok names hn g'.bounds.1 g.1
    have hrt : r = g'.time := by rw [hr] at e4; cases e4; rfl
    subst hrt
    refine ⟨by rw [e1]; exact hlen, ⟨i0, by unfold Member; rw [e1]; exact hi0⟩, by rw [e1]; exact e3, ?_⟩
    intro i d hd hm
    unfold Member at hm ⊢
    rw [e1] at hm ⊢
    have hp := (member_parts _ _ g hgm i d hd).1 hm
    have hpart : ∀ n ∈ names, part g.1 (partNames.idxOf n) = partOf d n := by
      intro n hnn
      unfold part
      rw [hp _ (List.mem_map_of_mem hnn), Option.getD_some, partOf_eq d n (hn.2 n hnn)]
    refine ⟨?_, ?_⟩
    · intro n hnn
      have := hpart n hnn
      rcases hn.2 n hnn with rfl | rfl | rfl
      · show g'.time.year = _
        rw [r1, if_pos hnn]; exact this
      · show g'.time.month = _
        rw [r2, if_pos hnn]; exact this
      · show g'.time.day = _
        rw [r3, if_pos hnn]; exact this
    · intro j e he
      rw [member_parts _ _ g hgm j e he]
      constructor
      · intro hq n hnn
        rw [← hpart n hnn]
        unfold part
        rw [hq _ (List.mem_map_of_mem hnn), Option.getD_some, partOf_eq e n (hn.2 n hnn)]
      · intro hq k hk
        rw [hp k hk]
        obtain ⟨n, hnn, rfl⟩ := List.mem_map.1 hk
        rw [partOf_eq d n (hn.2 n hnn), partOf_eq e n (hn.2 n hnn), hq n hnn]
  refine ⟨⟨gs, t.dim, t.unlimited, newBoundsDims t⟩, ?_, hpart, hall, ?_⟩
  · unfold getGrouping
    rw [hne]
    simp only [Bool.false_eq_true, if_false, groupsOf]
    rw [h1]
  · rw [List.pairwise_iff_getElem]
    intro k k' hk hk' hkk he
    obtain ⟨hl, ⟨i, hi⟩, -, ha⟩ := hall _ (List.getElem_mem hk)
    obtain ⟨hl', ⟨i', hi'⟩, -, ha'⟩ := hall _ (List.getElem_mem hk')
    have hil : i < t.dates.length := by rw [← hl]; exact (List.getElem?_eq_some_iff.1 hi).1
    have hil' : i' < t.dates.length := by rw [← hl']; exact (List.getElem?_eq_some_iff.1 hi').1
    obtain ⟨q1, q2⟩ := ha i _ (List.getElem?_eq_getElem hil) hi
    obtain ⟨q3, -⟩ := ha' i' _ (List.getElem?_eq_getElem hil') hi'
    have hm : Member gs[k] i' := (q2 i' _ (List.getElem?_eq_getElem hil')).2 fun n hnn => by
      rw [← q1 n hnn, ← q3 n hnn, he]
    obtain ⟨k0, g0, hk0, hm0, hu⟩ := hpart i' hil'
    have a1 := hu k _ (List.getElem?_eq_getElem hk) hm
    have a2 := hu k' _ (List.getElem?_eq_getElem hk') hi'
    omega

/-- C95 (order).  If years are grouped on, the representative times are in order. -/
theorem C95_order_partial (t : TimeVar) (names : List String) (hs : Sound t) (hn : Groupable names) (hy : "year" ∈ names) :
    ∃ v, getGrouping t (.parts names) = .ok v ∧ v.groups.Pairwise fun g h => Before g.time h.time := by
  obtain ⟨gs, h1, h2, h3⟩ := partsGroups_index t names hs hn
  have hne : t.dates.isEmpty = false := by
    cases hd : t.dates with
    | nil => exact absurd hd hs.1
    | cons _ _ => rfl
  refine ⟨⟨gs, t.dim, t.unlimited, newBoundsDims t⟩, by unfold getGrouping; rw [hne]; simp only [Bool.false_eq_true, if_false, groupsOf]; rw [h1], ?_⟩
  obtain ⟨m0, m1, m2⟩ := index_mem names hn
  rw [List.pairwise_iff_getElem]
  intro k k' hk hk' hkk
  have hk : k < gs.length := hk
  have hk' : k' < gs.length := hk'
  have hg := List.getElem?_eq_getElem (l := groups t.dates (names.map partNames.idxOf)) (i := k) (by omega)
  have hg' := List.getElem?_eq_getElem (l := groups t.dates (names.map partNames.idxOf)) (i := k') (by omega)
  have hlex := List.pairwise_iff_getElem.1 (groups_sorted t.dates (names.map partNames.idxOf)) k k' (by omega) (by omega) hkk
  obtain ⟨-, -, -, e4⟩ := h3 k _ _ hg (List.getElem?_eq_getElem hk)
  obtain ⟨-, -, -, e4'⟩ := h3 k' _ _ hg' (List.getElem?_eq_getElem hk')
  have hc := ((groups_mem _ _ _).1 (List.mem_of_getElem? hg)).1
  have hc' := ((groups_mem _ _ _).1 (List.mem_of_getElem? hg')).1
  obtain ⟨a, b, d, ec, ha, hb, hd⟩ := candidate_form _ _ (indices_lt names hn) _ hc
  obtain ⟨a', b', d', ec', ha', hb', hd'⟩ := candidate_form _ _ (indices_lt names hn) _ hc'
  rw [m0] at ha ha'
  rw [m1] at hb hb'
  rw [m2] at hd hd'
  rw [ec] at e4 hlex
  rw [ec'] at e4' hlex
  obtain ⟨r, hr, r1, r2, r3, -⟩ := partsTime_ok names hn (gs[k].bounds.1) [a, b, d, none, none, none]
  obtain ⟨r', hr', r1', r2', r3', -⟩ := partsTime_ok names hn (gs[k'].bounds.1) [a', b', d', none, none, none]
  have hrt : gs[k].time = r := by rw [hr] at e4; cases e4; rfl
  have hrt' : gs[k'].time = r' := by rw [hr'] at e4'; cases e4'; rfl
  show Before gs[k].time gs[k'].time
  rw [hrt, hrt']
  apply before_of
  rw [if_pos hy] at r1 r1'
  rw [if_pos hy] at r2 r2'
  rw [r1, r1', r2, r2', r3, r3']
  have nn : ¬ optLt none none := by rintro ⟨x, y, hx, -⟩; cases hx
  rcases hlex with ⟨x, y, hx, hy', hxy⟩ | ⟨e0, ⟨x, y, hx, hy', hxy⟩ | ⟨e1, ⟨x, y, hx, hy', hxy⟩ | ⟨e2, h⟩⟩⟩
  · left
    rw [hx, hy']
    exact hxy
  · right
    have hmm : "month" ∈ names := Classical.byContradiction fun h => by rw [hb.2 h] at hx; cases hx
    rw [if_pos hmm, if_pos hmm, e0, hx, hy']
    exact ⟨rfl, .inl hxy⟩
  · right
    have hdd : "day" ∈ names := Classical.byContradiction fun h => by rw [hd.2 h] at hx; cases hx
    rw [if_pos hdd, if_pos hdd, e0, e1, hx, hy']
    exact ⟨rfl, .inr ⟨rfl, hxy⟩⟩
  · rcases h with h | ⟨-, h | ⟨-, h | ⟨-, h⟩⟩⟩
    · exact absurd h nn
    · exact absurd h nn
    · exact absurd h nn
    · exact absurd h id

/-- C95 (labels and conventions).  A group is labelled by the parts grouped on.  Its time takes the year of the lower bound if years are not
grouped on, and else July if months are not grouped on; it is noon of a day, the 16th of a month or the 1st of July. -/
theorem C95_conventions (t : TimeVar) (names : List String) (hs : Sound t) (hn : Groupable names) :
    ∃ v, getGrouping t (.parts names) = .ok v ∧ ∀ g ∈ v.groups,
      (∀ i d, t.dates[i]? = some d → Member g i →
        g.label = .parts [if "year" ∈ names then some d.year else none, if "month" ∈ names then some d.month else none,
          if "day" ∈ names then some d.day else none, none, none, none]) ∧
      ("year" ∉ names → g.time.year = g.bounds.1.year) ∧
      ("month" ∉ names → g.time.month = if "year" ∈ names then 7 else g.bounds.1.month) ∧
      ("day" ∉ names → g.time.day = if "month" ∈ names then 16 else 1) ∧
      g.time.hour = (if "day" ∈ names then 12 else 0) ∧ g.time.minute = 0 ∧ g.time.second = 0 := by
  obtain ⟨gs, h1, h2, h3⟩ := partsGroups_index t names hs hn
  have hne : t.dates.isEmpty = false := by
    cases hd : t.dates with
    | nil => exact absurd hd hs.1
    | cons _ _ => rfl
  refine ⟨⟨gs, t.dim, t.unlimited, newBoundsDims t⟩, by unfold getGrouping; rw [hne]; simp only [Bool.false_eq_true, if_false, groupsOf]; rw [h1], ?_⟩
  intro g' hg'
  obtain ⟨k, hk⟩ := List.mem_iff_getElem?.1 hg'
  have hkl := (List.getElem?_eq_some_iff.1 hk).1
  have hg := List.getElem?_eq_getElem (l := groups t.dates (names.map partNames.idxOf)) (i := k) (by rw [← h2]; exact hkl)
  obtain ⟨e1, e2, e3, e4⟩ := h3 k _ g' hg hk
  have hgm := List.mem_of_getElem? hg
  obtain ⟨r, hr, r1, r2, r3, r4, r5, r6⟩ := partsTime_ok names hn g'.bounds.1 (groups t.dates (names.map partNames.idxOf))[k].1
  have hrt : g'.time = r := by rw [hr] at e4; cases e4; rfl
  rw [hrt]
  refine ⟨?_, fun h => by rw [r1, if_neg h], fun h => by rw [r2, if_neg h], fun h => by rw [r3, if_neg h], r4, r5, r6⟩
  intro i d hd hm
  unfold Member at hm
  rw [e1] at hm
  have hp := (member_parts _ _ _ hgm i d hd).1 hm
  obtain ⟨a, b, c, ec, ha, hb, hc⟩ := candidate_form _ _ (indices_lt names hn) _ ((groups_mem _ _ _).1 hgm).1
  obtain ⟨m0, m1, m2⟩ := index_mem names hn
  rw [e2, ec]
  rw [ec] at hp
  rw [m0] at ha
  rw [m1] at hb
  rw [m2] at hc
  have ea : a = if "year" ∈ names then some d.year else none := by
    by_cases h : "year" ∈ names
    · rw [if_pos h]; exact hp 0 (m0.2 h)
    · rw [if_neg h]; exact ha.2 h
  have eb : b = if "month" ∈ names then some d.month else none := by
    by_cases h : "month" ∈ names
    · rw [if_pos h]; exact hp 1 (m1.2 h)
    · rw [if_neg h]; exact hb.2 h
  have edd : c = if "day" ∈ names then some d.day else none := by
    by_cases h : "day" ∈ names
    · rw [if_pos h]; exact hp 2 (m2.2 h)
    · rw [if_neg h]; exact hc.2 h
  rw [ea, eb, edd]

/-! ## Seasons -/

theorem seasonMembers_get (dates : List Date) (season : List Int) (year : Option Int) (i : Nat) (d : Date) (hd : dates[i]? = some d) :
    (seasonMembers dates season year)[i]? = some true ↔ d.month ∈ season ∧ ∀ y, year = some y → d.year = y := by
  unfold seasonMembers
  rw [List.getElem?_map, hd]
  cases year with
  | none => simp
  | some y =>
    simp only [Option.map_some, Option.some.injEq, Bool.and_eq_true, decide_eq_true_eq, List.contains_iff_mem]
    constructor
    · rintro ⟨h1, h2⟩
      exact ⟨h1, fun z hz => by rw [← hz, h2]⟩
    · rintro ⟨h1, h2⟩
      exact ⟨h1, (h2 y rfl).symm⟩

theorem mem_seasonKeys (dates : List Date) (byYear : Bool) (seasons : List (List Int)) (hne : ∀ s ∈ seasons, s ≠ [])
    (hdist : seasons.Pairwise fun s t => SeasonBefore false s t ∨ SeasonBefore false t s) :
    ∃ ks, seasonKeys dates byYear seasons = .ok ks ∧ ks.Nodup ∧
      ∀ y s, (y, s) ∈ ks ↔ s ∈ seasons ∧ if byYear then ∃ d ∈ dates, y = some d.year else y = none := by
  obtain ⟨r, h1, h2, h3⟩ := C27_permutation_partial false seasons hne hdist
  unfold seasonKeys
  rw [h1]
  refine ⟨_, rfl, ?_, fun y s => ?_⟩
  · have hyn : (if byYear then (unique (dates.map (·.year))).map some else [none]).Nodup := by
      split
      · rw [List.Nodup, List.pairwise_map]
        exact (unique_nodup _).imp fun hab he => hab (Option.some.inj he)
      · simp
    have hrn : r.Nodup := by
      refine List.Pairwise.imp_of_mem ?_ h3
      intro a b ha hb hab he
      subst he
      rw [before_iff _ _ _ (hne _ (h2.subset ha)) (hne _ (h2.subset ha))] at hab
      omega
    rw [List.Nodup, List.pairwise_flatMap]
    refine ⟨fun a _ => ?_, ?_⟩
    · rw [List.pairwise_map]
      exact hrn.imp fun hxy he => hxy (Prod.mk.inj he).2
    · refine hyn.imp ?_
      intro a b hab x hx y hy he
      obtain ⟨_, _, rfl⟩ := List.mem_map.1 hx
      obtain ⟨_, _, rfl⟩ := List.mem_map.1 hy
      exact hab (Prod.mk.inj he).1
  · simp only [List.mem_flatMap, List.mem_map, Prod.mk.injEq]
    constructor
    · rintro ⟨y', hy', s', hs', rfl, rfl⟩
      refine ⟨h2.subset hs', ?_⟩
      split at hy'
      · rename_i hb
        rw [if_pos hb]
        obtain ⟨z, hz, rfl⟩ := List.mem_map.1 hy'
        obtain ⟨d, hd, rfl⟩ := List.mem_map.1 ((mem_unique _ _).1 hz)
        exact ⟨d, hd, rfl⟩
      · rename_i hb
        rw [if_neg hb]
        simpa using hy'
    · rintro ⟨hs, hy⟩
      refine ⟨y, ?_, s, h2.symm.subset hs, rfl, rfl⟩
      split at hy
      · rename_i hb
        rw [if_pos hb]
        obtain ⟨d, hd, rfl⟩ := hy
        exact List.mem_map.2 ⟨_, (mem_unique _ _).2 (List.mem_map.2 ⟨d, hd, rfl⟩), rfl⟩
      · rename_i hb
        rw [if_neg hb, hy]
        simp

theorem notAfter_year {a b : Date} (h : NotAfter a b) : a.year ≤ b.year := by
  unfold NotAfter at h
  rw [List.cons_le_cons_iff] at h
  omega

/-- The representative of a season is in the season, if the season goes over the turn of the year or the times have no bounds. -/
theorem seasonTime_month (t : TimeVar) (ms : List Bool) (b : Date × Date) (season : List Int) (hcov : Covers t ms b)
    (hms : ∀ (i : Nat) (d : Date), t.dates[i]? = some d → ms[i]? = some true → d.month ∈ season)
    (h : (12 ∈ season ∧ 1 ∈ season) ∨ (t.bounds = none ∧ Contiguous season)) : (seasonTime b season).month ∈ season := by
  unfold seasonTime
  by_cases hc : 12 ∈ season ∧ 1 ∈ season
  · have h0 : 0 < season.length := List.length_pos_of_mem hc.1
    have hf : (season.contains 12 && season.contains 1) = true := by
      simpa using hc
    rw [hf]
    simp only [if_true]
    rw [List.getD_eq_getElem?_getD, List.getElem?_eq_getElem (by omega)]
    exact List.getElem_mem _
  · obtain ⟨hb, hcon⟩ := h.resolve_left hc
    have hcell : ∀ (i : Nat) (c : Date × Date), ms[i]? = some true → timeCell t i = some c → c.1.month ∈ season ∧ c.2.month ∈ season := by
      intro i c hi hcl
      unfold timeCell at hcl
      rw [hb] at hcl
      simp only [Option.map_eq_some_iff] at hcl
      obtain ⟨d, hd, rfl⟩ := hcl
      exact ⟨hms i d hd hi, hms i d hd hi⟩
    have h1 : b.1.month ∈ season := by
      obtain ⟨i, c, hi, hcl, he⟩ := hcov.first
      have := hcell i c hi hcl
      rcases he with he | he <;> rw [he]
      · exact this.1
      · exact this.2
    have h2 : b.2.month ∈ season := by
      obtain ⟨i, c, hi, hcl, he⟩ := hcov.last
      have := hcell i c hi hcl
      rcases he with he | he <;> rw [he]
      · exact this.1
      · exact this.2
    have hf : (season.contains 12 && season.contains 1) = false := by
      rw [← Bool.not_eq_true]
      simpa using hc
    rw [hf]
    simp only [Bool.false_eq_true, if_false]
    rcases Int.le_total b.1.month b.2.month with hle | hle
    · exact hcon _ h1 _ h2 _ (by omega) (by omega)
    · exact hcon _ h2 _ h1 _ (by omega) (by omega)

/-- C95 (seasons).  If every season, in every year when years are grouped on, has times, there is one group for each: its times are those
of the season, its bounds are the first and the last of theirs, and the year of the representative is not outside them.  The month of the
representative is in the season if the season goes over the turn of the year, or the times have no bounds and its months are consecutive.

Missing from the full property: seasons without times, seasons that begin with the same month, and representatives of times with bounds
(see the counterexamples). -/
theorem C95_seasons_partial (t : TimeVar) (byYear : Bool) (seasons : List (List Int)) (hs : Sound t) (hne : ∀ s ∈ seasons, s ≠ [])
    (hdist : seasons.Pairwise fun s t => SeasonBefore false s t ∨ SeasonBefore false t s)
    (hdata : ∀ s ∈ seasons, ∀ e ∈ t.dates, ∃ d ∈ t.dates, d.month ∈ s ∧ (byYear = true → d.year = e.year)) :
    ∃ v, getGrouping t (.seasonal byYear seasons) = .ok v ∧
      v.groups.Pairwise (fun g h => g.label ≠ h.label) ∧
      (∀ s y, (∃ g ∈ v.groups, g.label = .season s y) ↔ s ∈ seasons ∧ if byYear then ∃ d ∈ t.dates, y = some d.year else y = none) ∧
      ∀ g ∈ v.groups, ∃ s y, g.label = .season s y ∧ g.members.length = t.dates.length ∧
        (∀ i d, t.dates[i]? = some d → (Member g i ↔ d.month ∈ s ∧ ∀ x, y = some x → d.year = x)) ∧
        Covers t g.members g.bounds ∧ g.bounds.1.year ≤ g.time.year ∧ g.time.year ≤ g.bounds.2.year ∧
        ((12 ∈ s ∧ 1 ∈ s) ∨ (t.bounds = none ∧ Contiguous s) → g.time.month ∈ s) := by
  obtain ⟨ks, h1, h2, h3⟩ := mem_seasonKeys t.dates byYear seasons hne hdist
  have hnon : t.dates.isEmpty = false := by
    cases hd : t.dates with
    | nil => exact absurd hd hs.1
    | cons _ _ => rfl
  obtain ⟨gs, g1, g2, g3⟩ := mapM_index (seasonGroup t) (fun (k : Option Int × List Int) (g : Group) =>
      g.label = .season k.2 k.1 ∧ g.members = seasonMembers t.dates k.2 k.1 ∧ Covers t g.members g.bounds ∧ g.time = seasonTime g.bounds k.2) ks
    (by
      rintro ⟨y, s⟩ hk
      obtain ⟨hsm, hy⟩ := (h3 y s).1 hk
      have hex : ∃ (i : Nat) (d : Date), t.dates[i]? = some d ∧ d.month ∈ s ∧ ∀ x, y = some x → d.year = x := by
        cases hb : byYear with
        | true =>
          rw [hb, if_pos rfl] at hy
          obtain ⟨e, he, rfl⟩ := hy
          obtain ⟨d, hd, hm, hyr⟩ := hdata s hsm e he
          obtain ⟨i, hi⟩ := List.mem_iff_getElem?.1 hd
          exact ⟨i, d, hi, hm, fun x hx => by cases hx; exact hyr hb⟩
        | false =>
          rw [hb] at hy
          simp only [Bool.false_eq_true, if_false] at hy
          obtain ⟨e, he⟩ := List.exists_mem_of_ne_nil _ hs.1
          obtain ⟨d, hd, hm, -⟩ := hdata s hsm e he
          obtain ⟨i, hi⟩ := List.mem_iff_getElem?.1 hd
          exact ⟨i, d, hi, hm, fun x hx => by rw [hy] at hx; cases hx⟩
      obtain ⟨i, d, hd, hm⟩ := hex
      have hmem := (seasonMembers_get t.dates s y i d hd).2 hm
      obtain ⟨c, hc⟩ := timeCell_some t hs i (List.getElem?_eq_some_iff.1 hd).1
      obtain ⟨b, hb, hcov⟩ := groupBounds_spec t _ ⟨i, c, hmem, hc⟩
      refine ⟨⟨seasonMembers t.dates s y, b, seasonTime b s, .season s y⟩, ?_, rfl, rfl, hcov, rfl⟩
      unfold TimeGroup.seasonGroup
      rw [hb])
  have hidx : ∀ g ∈ gs, ∃ y s, (y, s) ∈ ks ∧ g.label = .season s y ∧ g.members = seasonMembers t.dates s y ∧ Covers t g.members g.bounds ∧
      g.time = seasonTime g.bounds s := by
    intro g hg
    obtain ⟨k, hk⟩ := List.mem_iff_getElem?.1 hg
    have hl := (List.getElem?_eq_some_iff.1 hk).1
    have hx := List.getElem?_eq_getElem (l := ks) (i := k) (by omega)
    obtain ⟨e1, e2, e3, e4⟩ := g3 k _ g hx hk
    exact ⟨_, _, List.mem_of_getElem? hx, e1, e2, e3, e4⟩
  refine ⟨⟨gs, t.dim, t.unlimited, newBoundsDims t⟩, ?_, ?_, fun s y => ?_, fun g hg => ?_⟩
  · unfold getGrouping
    rw [hnon]
    simp only [Bool.false_eq_true, if_false, groupsOf, seasonGroups]
    rw [h1]
    simp only
    rw [g1]
  · rw [List.pairwise_iff_getElem]
    intro k k' hk hk' hkk he
    have hk : k < gs.length := hk
    have hk' : k' < gs.length := hk'
    have a1 := (g3 k _ _ (List.getElem?_eq_getElem (by omega)) (List.getElem?_eq_getElem hk)).1
    have a2 := (g3 k' _ _ (List.getElem?_eq_getElem (by omega)) (List.getElem?_eq_getElem hk')).1
    have he : gs[k].label = gs[k'].label := he
    rw [a1, a2] at he
    injection he with e1 e2
    have hnd := List.pairwise_iff_getElem.1 h2 k k' (by omega) (by omega) hkk
    exact hnd (Prod.ext e2 e1)
  · rw [← h3]
    constructor
    · rintro ⟨g, hg, hl⟩
      obtain ⟨y', s', hk, hl', -⟩ := hidx g hg
      rw [hl] at hl'
      injection hl' with e1 e2
      rw [e1, e2]
      exact hk
    · intro hk
      obtain ⟨k, hk⟩ := List.mem_iff_getElem?.1 hk
      have hl := (List.getElem?_eq_some_iff.1 hk).1
      have hg := List.getElem?_eq_getElem (l := gs) (i := k) (by omega)
      exact ⟨_, List.mem_of_getElem? hg, (g3 k _ _ hk hg).1⟩
  · obtain ⟨y, s, hk, hl, hm, hcov, ht⟩ := hidx g hg
    have hmem : ∀ i d, t.dates[i]? = some d → (Member g i ↔ d.month ∈ s ∧ ∀ x, y = some x → d.year = x) := by
      intro i d hd
      unfold Member
      rw [hm]
      exact seasonMembers_get t.dates s y i d hd
    have hle : g.bounds.1.year ≤ g.bounds.2.year := by
      obtain ⟨i, c, hi, hc, he⟩ := hcov.last
      have := hcov.below i c hi hc
      rcases he with he | he <;> rw [he]
      · exact notAfter_year this.1
      · exact notAfter_year this.2
    refine ⟨s, y, hl, by rw [hm]; simp [seasonMembers], hmem, hcov, ?_, ?_, ?_⟩
    · rw [ht]
      show _ ≤ (g.bounds.1.year + g.bounds.2.year) / 2
      omega
    · rw [ht]
      show (g.bounds.1.year + g.bounds.2.year) / 2 ≤ _
      omega
    · intro h
      rw [ht]
      exact seasonTime_month t g.members g.bounds s hcov (fun i d hd hi => ((hmem i d hd).1 hi).1) h

/-- C95 (unique seasons).  The groups are those of C28 if the times have no bounds; the representative is one of the times of the group,
and without bounds the bounds of the group are its first and last time.

Missing from the full property: bounds of the times are not looked at (`C95_unique_bounds_counterexample`). -/
theorem C95_unique_partial (t : TimeVar) (seasons : List (List Int)) (v : GroupVar) (h : getGrouping t (.uniq seasons) = .ok v) :
    (t.bounds = none → ∃ r, sortedSeasons true seasons = .ok r ∧ uniqueSeasons r t.dates = .ok (v.groups.map Group.members)) ∧
    ∀ g ∈ v.groups, g.members.length = t.dates.length ∧ (∃ i, Member g i ∧ t.dates[i]? = some g.time) ∧
      (t.bounds = none → Covers t g.members g.bounds) := by
  unfold getGrouping at h
  split at h
  · cases h
  · split at h
    · cases h
    · rename_i gs hgs
      cases h
      simp only [groupsOf, uniqueGroups] at hgs
      cases hsort : sortedSeasons true seasons with
      | error e => rw [hsort] at hgs; cases hgs
      | ok r =>
        rw [hsort] at hgs
        simp only [bind, Except.bind] at hgs
        cases hreg : timeRegions r t.dates false with
        | error e => rw [hreg] at hgs; cases hgs
        | ok regions =>
          rw [hreg] at hgs
          simp only at hgs
          cases hrs : regions.mapM (regionsOf t) with
          | error e => rw [hrs] at hgs; cases hgs
          | ok rs =>
            rw [hrs] at hgs
            simp only at hgs
            have hone : ∀ (l : List (List Nat × Bool)) (gs : List Group), l.mapM (fun g => uniqueGroup t g.1) = .ok gs →
                gs.map Group.members = l.map (fun g => (List.range t.dates.length).map fun i => g.1.contains i) ∧
                ∀ g ∈ gs, ∃ x, uniqueGroup t x = .ok g := by
              intro l
              induction l with
              | nil =>
                intro gs e
                rw [List.mapM_nil] at e
                cases e
                exact ⟨rfl, fun g hg => by cases hg⟩
              | cons a l ih =>
                intro gs e
                rw [List.mapM_cons] at e
                cases ha : uniqueGroup t a.1 with
                | error _ => rw [ha] at e; cases e
                | ok b =>
                  rw [ha] at e
                  cases hl : l.mapM (fun g => uniqueGroup t g.1) with
                  | error _ => rw [hl] at e; cases e
                  | ok bs =>
                    rw [hl] at e
                    cases e
                    obtain ⟨i1, i2⟩ := ih bs hl
                    refine ⟨?_, fun g hg => ?_⟩
                    · rw [List.map_cons, List.map_cons, i1]
                      congr 1
                      unfold uniqueGroup at ha
                      split at ha
                      · cases ha
                      · cases ha; rfl
                    · rcases List.mem_cons.1 hg with rfl | hg
                      · exact ⟨_, ha⟩
                      · exact i2 g hg
            obtain ⟨o1, o2⟩ := hone _ gs hgs
            refine ⟨fun hb => ⟨r, rfl, ?_⟩, fun g hg => ?_⟩
            · have hsub : ∀ l : List Region, regionsOf t l = subGroup t.dates l := by
                intro l
                induction l with
                | nil => rfl
                | cons x l ih =>
                  simp only [regionsOf, subGroup, regionOf, hb, ih]
                  rfl
              unfold uniqueSeasons
              rw [hreg]
              simp only [bind, Except.bind]
              unfold booleanGroups
              rw [show subGroup t.dates = regionsOf t from funext fun l => (hsub l).symm, hrs]
              simp only [bind, Except.bind]
              show Except.ok _ = Except.ok _
              rw [o1]
            · obtain ⟨x, hx⟩ := o2 g hg
              unfold uniqueGroup at hx
              split at hx
              · cases hx
              · rename_i b hb
                cases hx
                have hne : pick ((List.range t.dates.length).map fun i => x.contains i) t.dates ≠ [] := by
                  intro e
                  rw [e] at hb
                  cases hb
                refine ⟨by simp, ?_, fun hnb => ?_⟩
                · have hlen : 0 < (pick ((List.range t.dates.length).map fun i => x.contains i) t.dates).length := List.length_pos_iff.2 hne
                  have hmem : (pick ((List.range t.dates.length).map fun i => x.contains i) t.dates).getD
                      ((pick ((List.range t.dates.length).map fun i => x.contains i) t.dates).length / 2) b.1 ∈
                      pick ((List.range t.dates.length).map fun i => x.contains i) t.dates := by
                    rw [List.getD_eq_getElem?_getD, List.getElem?_eq_getElem (by omega)]
                    exact List.getElem_mem _
                  obtain ⟨i, h1, h2⟩ := (mem_pick _ _ _).1 hmem
                  exact ⟨i, h1, h2⟩
                · obtain ⟨b', e1, e2, e3, e4, e5⟩ := extentOf_spec _ hne
                  rw [hb] at e1
                  cases e1
                  have hcell : ∀ (i : Nat) c, timeCell t i = some c → ∃ d, t.dates[i]? = some d ∧ c = (d, d) := by
                    intro i c hc
                    unfold timeCell at hc
                    rw [hnb] at hc
                    simp only [Option.map_eq_some_iff] at hc
                    obtain ⟨d, hd, rfl⟩ := hc
                    exact ⟨d, hd, rfl⟩
                  have hcell' : ∀ (i : Nat) d, t.dates[i]? = some d → timeCell t i = some (d, d) := by
                    intro i d hd
                    unfold timeCell
                    rw [hnb]
                    simp [hd]
                  refine ⟨fun i c h1 h2 => ?_, fun i c h1 h2 => ?_, ?_, ?_⟩
                  · obtain ⟨d, hd, rfl⟩ := hcell i c h2
                    have := e4 d ((mem_pick _ _ _).2 ⟨i, h1, hd⟩)
                    exact ⟨this, this⟩
                  · obtain ⟨d, hd, rfl⟩ := hcell i c h2
                    have := e5 d ((mem_pick _ _ _).2 ⟨i, h1, hd⟩)
                    exact ⟨this, this⟩
                  · obtain ⟨i, h1, h2⟩ := (mem_pick _ _ _).1 e2
                    exact ⟨i, _, h1, hcell' i _ h2, .inl rfl⟩
                  · obtain ⟨i, h1, h2⟩ := (mem_pick _ _ _).1 e3
                    exact ⟨i, _, h1, hcell' i _ h2, .inl rfl⟩

/-- C95 (all times).  Grouping all times gives one group of all of them, with the first and the last bound, represented by one of them: the
last of the first half if there is an even number.

Missing from the full property: the representative of an odd number of times is not the middle one (`C95_middle_counterexample`). -/
theorem C95_all_partial (t : TimeVar) (hs : Sound t) :
    ∃ v g, getGrouping t .all = .ok v ∧ v.groups = [g] ∧ g.members.length = t.dates.length ∧ (∀ i, i < t.dates.length → Member g i) ∧
      Covers t g.members g.bounds ∧ ∃ k : Nat, t.dates[k]? = some g.time ∧ ∀ n, t.dates.length = 2 * n → k + 1 = n := by
  have hnon : t.dates.isEmpty = false := by
    cases hd : t.dates with
    | nil => exact absurd hd hs.1
    | cons _ _ => rfl
  have hpos : 0 < t.dates.length := List.length_pos_iff.2 hs.1
  have hmem : ∀ i, i < t.dates.length → (t.dates.map fun _ => true)[i]? = some true := by
    intro i hi
    rw [List.getElem?_map, List.getElem?_eq_getElem hi]
    rfl
  have hpick : (t.cells.flatMap fun c => [c.1, c.2]) = ((pick (t.dates.map fun _ => true) t.cells).flatMap fun c => [c.1, c.2]) := by
    have hlen : t.cells.length = t.dates.length := by
      unfold TimeVar.cells
      cases hb : t.bounds with
      | none => simp
      | some bs => exact hs.2 bs hb
    have : ∀ (l : List Date) (cs : List (Date × Date)), cs.length = l.length → pick (l.map fun _ => true) cs = cs := by
      intro l
      induction l with
      | nil =>
        intro cs h
        rw [List.eq_nil_of_length_eq_zero h]
        rfl
      | cons a l ih =>
        intro cs h
        cases cs with
        | nil => simp at h
        | cons c cs =>
          have := ih cs (by simpa using h)
          unfold TimeGroup.pick at this ⊢
          simp only [List.map_cons, List.zip_cons_cons, List.filterMap_cons, if_true]
          rw [this]
    rw [this t.dates t.cells hlen]
  obtain ⟨c, hc⟩ := timeCell_some t hs 0 hpos
  obtain ⟨b, hb, hcov⟩ := groupBounds_spec t (t.dates.map fun _ => true) ⟨0, c, hmem 0 hpos, hc⟩
  unfold groupBounds at hb
  rw [← hpick] at hb
  refine ⟨⟨[⟨t.dates.map fun _ => true, b, t.dates.getD ((t.dates.length - 2) / 2) b.1, .none⟩], t.dim, t.unlimited, newBoundsDims t⟩, _, ?_, rfl, by simp, hmem, hcov,
    (t.dates.length - 2) / 2, ?_, fun n hn => by omega⟩
  · unfold getGrouping
    rw [hnon]
    simp only [Bool.false_eq_true, if_false, groupsOf, allGroup]
    rw [hb]
  · show _ = some (t.dates.getD ((t.dates.length - 2) / 2) b.1)
    rw [List.getD_eq_getElem?_getD, List.getElem?_eq_getElem (by omega)]
    rfl

/-- C95 (shape).  The grouped times have the dimension of the times, unlimited just when it is, and so have the new bounds, with their
second dimension kept. -/
theorem C95_dimensions (t : TimeVar) (gr : Grouping) (v : GroupVar) (h : getGrouping t gr = .ok v) :
    v.dim = t.dim ∧ v.unlimited = t.unlimited ∧
    v.boundsDims = (if t.bounds = none then [t.dim, "bounds"] else t.dim :: t.boundsDims.tail) := by
  unfold getGrouping at h
  split at h
  · cases h
  · split at h
    · cases h
    · cases h
      refine ⟨rfl, rfl, ?_⟩
      unfold newBoundsDims
      cases t.bounds <;> simp

/-- C95 (refused).  There is nothing to group without times; unknown parts are refused, and so are hours, minutes and seconds. -/
theorem C95_refused (t : TimeVar) (names : List String) :
    (∀ g, t.dates = [] → getGrouping t g = .error .indexError) ∧
    (t.dates ≠ [] → (∃ n ∈ names, n ∉ ["year", "month", "day", "hour", "minute", "second"]) → getGrouping t (.parts names) = .error .keyError) ∧
    (Sound t → (∀ n ∈ names, n ∈ ["year", "month", "day", "hour", "minute", "second"]) → ¬ Groupable names →
      getGrouping t (.parts names) = .error .notImplemented) := by
  have hnon : t.dates ≠ [] → t.dates.isEmpty = false := by
    intro h
    cases hd : t.dates with
    | nil => exact absurd hd h
    | cons _ _ => rfl
  refine ⟨fun g h => by simp [getGrouping, h], fun hne hex => ?_, fun hs hall hng => ?_⟩
  · have : partIndices names = .error .keyError := by
      unfold partIndices
      apply mapM_fails
      · intro n _
        by_cases hn : partNames.contains n = true
        · exact .inl ⟨_, if_pos hn⟩
        · exact .inr (if_neg hn)
      · obtain ⟨n, hn, hnn⟩ := hex
        refine ⟨n, hn, if_neg ?_⟩
        rw [List.contains_iff_mem]
        exact hnn
    unfold getGrouping
    rw [hnon hne]
    simp only [Bool.false_eq_true, if_false, groupsOf, partsGroups]
    rw [this]
  · have hidx : ∃ is, partIndices names = .ok is ∧ ∀ k ∈ is, k < 6 := by
      unfold partIndices
      obtain ⟨ys, y1, y2, y3⟩ := mapM_index (fun n => if partNames.contains n then Except.ok (partNames.idxOf n) else .error PyErr.keyError)
        (fun _ k => k < 6) names (fun n hn => by
          have hc : n ∈ partNames := hall n hn
          refine ⟨partNames.idxOf n, if_pos (List.contains_iff_mem.2 hc), ?_⟩
          have := List.idxOf_lt_length_of_mem hc
          exact this)
      refine ⟨ys, y1, fun k hk => ?_⟩
      obtain ⟨j, hj⟩ := List.mem_iff_getElem?.1 hk
      have hl := (List.getElem?_eq_some_iff.1 hj).1
      exact y3 j _ k (List.getElem?_eq_getElem (by omega)) hj
    obtain ⟨is, hi, hlt⟩ := hidx
    have htime : ∀ lower cand, partsTime names lower cand = .error .notImplemented := by
      intro lower cand
      have hns : ∀ b : List String, b ≠ [] → (∀ n ∈ b, n = "year" ∨ n = "month" ∨ n = "day") → sameSet names b = false := by
        intro b hb hbb
        rw [← Bool.not_eq_true, sameSet_iff]
        intro h
        apply hng
        refine ⟨?_, fun n hn => hbb n ((h n).1 hn)⟩
        intro e
        obtain ⟨n, hn⟩ := List.exists_mem_of_ne_nil _ hb
        have := (h n).2 hn
        rw [e] at this
        cases this
      unfold partsTime
      rw [hns ["month"] (by simp) (by simp), hns ["year"] (by simp) (by simp), hns ["month", "year"] (by simp) (by simp), hns ["day"] (by simp) (by simp),
        hns ["day", "month"] (by simp) (by simp), hns ["day", "year"] (by simp) (by simp), hns ["day", "year", "month"] (by simp) (by simp)]
      rfl
    have hgr : ∀ g ∈ groups t.dates is, partsGroup t names g = .error .notImplemented := by
      intro g hg
      obtain ⟨hlen, i, hi⟩ := member_lt _ _ g hg
      obtain ⟨c, hc⟩ := timeCell_some t hs i (by rw [← hlen]; exact (List.getElem?_eq_some_iff.1 hi).1)
      obtain ⟨b, hb, -⟩ := groupBounds_spec t g.2 ⟨i, c, hi, hc⟩
      unfold partsGroup
      rw [hb]
      simp only
      rw [htime]
    obtain ⟨n, ⟨g, hg, -⟩, -⟩ := C26_one_group t.dates is hlt 0 (List.length_pos_iff.2 hs.1)
    unfold getGrouping
    rw [hnon hs.1]
    simp only [Bool.false_eq_true, if_false, groupsOf, partsGroups]
    rw [hi]
    simp only
    rw [mapM_fails (partsGroup t names) .notImplemented _ (fun g hg => .inr (hgr g hg)) ⟨g, List.mem_of_getElem? hg, hgr g (List.mem_of_getElem? hg)⟩]

/-- C95 (a season without times).  If some season, in some year when years are grouped on, has no times, grouping by seasons is refused. -/
theorem C95_empty_season (t : TimeVar) (byYear : Bool) (seasons : List (List Int)) (hs : Sound t) (hne : ∀ s ∈ seasons, s ≠ [])
    (hdist : seasons.Pairwise fun s t => SeasonBefore false s t ∨ SeasonBefore false t s)
    (h : ∃ s ∈ seasons, ∃ e ∈ t.dates, ∀ d ∈ t.dates, d.month ∈ s → byYear = true ∧ d.year ≠ e.year) :
    getGrouping t (.seasonal byYear seasons) = .error .valueError := by
  obtain ⟨ks, h1, h2, h3⟩ := mem_seasonKeys t.dates byYear seasons hne hdist
  have hnon : t.dates.isEmpty = false := by
    cases hd : t.dates with
    | nil => exact absurd hd hs.1
    | cons _ _ => rfl
  have hlen : ∀ s y (i : Nat), (seasonMembers t.dates s y)[i]? = some true → ∃ d, t.dates[i]? = some d := by
    intro s y i hi
    have := (List.getElem?_eq_some_iff.1 hi).1
    exact ⟨_, List.getElem?_eq_getElem (by simpa [seasonMembers] using this)⟩
  have hfail : ks.mapM (seasonGroup t) = .error .valueError := by
    apply mapM_fails
    · rintro ⟨y, s⟩ _
      by_cases hex : ∃ i : Nat, (seasonMembers t.dates s y)[i]? = some true
      · obtain ⟨i, hi⟩ := hex
        obtain ⟨d, hd⟩ := hlen s y i hi
        obtain ⟨c, hc⟩ := timeCell_some t hs i (List.getElem?_eq_some_iff.1 hd).1
        obtain ⟨b, hb, -⟩ := groupBounds_spec t _ ⟨i, c, hi, hc⟩
        left
        refine ⟨⟨seasonMembers t.dates s y, b, seasonTime b s, .season s y⟩, ?_⟩
        unfold TimeGroup.seasonGroup
        rw [hb]
      · right
        unfold TimeGroup.seasonGroup
        rw [groupBounds_empty t _ fun i hi => hex ⟨i, hi⟩]
    · obtain ⟨s, hsm, e, he, hno⟩ := h
      refine ⟨(if byYear then some e.year else none, s), (h3 _ _).2 ⟨hsm, ?_⟩, ?_⟩
      · cases byYear with
        | true => exact ⟨e, he, rfl⟩
        | false => rfl
      · unfold TimeGroup.seasonGroup
        rw [groupBounds_empty]
        intro i hi
        obtain ⟨d, hd⟩ := hlen _ _ i hi
        obtain ⟨hm, hy⟩ := (seasonMembers_get _ _ _ i d hd).1 hi
        obtain ⟨hb, hyr⟩ := hno d (List.mem_of_getElem? hd) hm
        exact hyr (hy _ (by simp [hb]))
  unfold getGrouping
  rw [hnon]
  simp only [Bool.false_eq_true, if_false, groupsOf, seasonGroups]
  rw [h1]
  simp only
  rw [hfail]

/-! ## Counterexamples -/

/-- C95 is false of the order of groups if years are not grouped on: from July 2000 to June 2001, the months in order are not in the order
of their representative times. -/
theorem C95_order_counterexample :
    (getGrouping ⟨[⟨2000, 7, 1, 0, 0, 0⟩, ⟨2001, 1, 1, 0, 0, 0⟩], none, "time", false, []⟩ (.parts ["month"])).toOption.map (·.groups.map Group.time) =
      some [⟨2001, 1, 16, 0, 0, 0⟩, ⟨2000, 7, 16, 0, 0, 0⟩] := by decide

/-- C95 is false of representatives inside their bounds: the mean of January has bounds from the end of 1999, and is represented by a
time a year before, outside of its bounds. -/
theorem C95_month_bounds_counterexample :
    ∃ v g, getGrouping ⟨[⟨2000, 1, 16, 0, 0, 0⟩], some [(⟨1999, 12, 31, 12, 0, 0⟩, ⟨2000, 1, 31, 12, 0, 0⟩)], "time", false, []⟩ (.parts ["month"]) = .ok v ∧
      v.groups = [g] ∧ g.time = ⟨1999, 1, 16, 0, 0, 0⟩ ∧ Before g.time g.bounds.1 := by
  refine ⟨_, _, rfl, rfl, rfl, ?_⟩
  unfold Before NotAfter
  decide

/-- C95 is false of representatives inside their bounds also for months of years: three days at the beginning of January are represented
by the 16th, after the last of them. -/
theorem C95_incomplete_month_counterexample :
    ∃ v g, getGrouping ⟨[⟨2000, 1, 1, 0, 0, 0⟩, ⟨2000, 1, 2, 0, 0, 0⟩, ⟨2000, 1, 3, 0, 0, 0⟩], none, "time", false, []⟩ (.parts ["year", "month"]) = .ok v ∧
      v.groups = [g] ∧ g.time = ⟨2000, 1, 16, 0, 0, 0⟩ ∧ Before g.bounds.2 g.time := by
  refine ⟨_, _, rfl, rfl, rfl, ?_⟩
  unfold Before NotAfter
  decide

/-- C95 is false of representatives of days: the 31st of March with bounds from February is represented by the 31st of February. -/
theorem C95_day_counterexample :
    (getGrouping ⟨[⟨2000, 3, 31, 0, 0, 0⟩], some [(⟨2000, 2, 28, 0, 0, 0⟩, ⟨2000, 4, 1, 0, 0, 0⟩)], "time", false, []⟩ (.parts ["day"])).toOption.map
      (·.groups.map Group.time) = some [⟨2000, 2, 31, 12, 0, 0⟩] := by decide

/-- C95 is false of seasons of times with bounds: October, November and December with bounds until the 1st of January are represented by
May of the first of the two years, as April, May and June are. -/
theorem C95_season_bounds_counterexample :
    (getGrouping ⟨[⟨2000, 5, 16, 0, 0, 0⟩, ⟨2000, 11, 16, 0, 0, 0⟩],
        some [(⟨2000, 4, 1, 0, 0, 0⟩, ⟨2000, 7, 1, 0, 0, 0⟩), (⟨2000, 10, 1, 0, 0, 0⟩, ⟨2001, 1, 1, 0, 0, 0⟩)], "time", false, []⟩
        (.seasonal false [[4, 5, 6], [10, 11, 12]])).toOption.map (·.groups.map Group.time) =
      some [⟨2000, 5, 16, 0, 0, 0⟩, ⟨2000, 5, 16, 0, 0, 0⟩] := by decide +kernel

/-- C95 is false of seasons of years: a year without a time of one season makes the grouping fail. -/
theorem C95_year_season_counterexample :
    getGrouping ⟨[⟨2000, 1, 16, 0, 0, 0⟩, ⟨2000, 7, 16, 0, 0, 0⟩, ⟨2001, 1, 16, 0, 0, 0⟩], none, "time", false, []⟩
      (.seasonal true [[1, 2], [6, 7, 8]]) = .error .valueError := by decide +kernel

/-- C95 is false of winters in one year: the winter of 2000 grouped with the year is made of the first two months and the last. -/
theorem C95_winter_counterexample :
    (getGrouping ⟨[⟨2000, 1, 16, 0, 0, 0⟩, ⟨2000, 2, 16, 0, 0, 0⟩, ⟨2000, 6, 16, 0, 0, 0⟩, ⟨2000, 12, 16, 0, 0, 0⟩], none, "time", false, []⟩
      (.seasonal true [[12, 1, 2]])).toOption.map (·.groups.map fun g => (g.members, g.bounds)) =
      some [([true, true, false, true], (⟨2000, 1, 16, 0, 0, 0⟩, ⟨2000, 12, 16, 0, 0, 0⟩))] := by decide +kernel

/-- C95 is false of the bounds of unique seasons: they are the first and the last value of the times, which do not cover the bounds of the
times. -/
theorem C95_unique_bounds_counterexample :
    (getGrouping ⟨[⟨2000, 6, 16, 0, 0, 0⟩, ⟨2000, 7, 16, 0, 0, 0⟩], some [(⟨2000, 6, 1, 0, 0, 0⟩, ⟨2000, 7, 1, 0, 0, 0⟩), (⟨2000, 7, 1, 0, 0, 0⟩, ⟨2000, 7, 31, 0, 0, 0⟩)],
        "time", false, []⟩ (.uniq [[6, 7]])).toOption.map (·.groups.map Group.bounds) =
      some [(⟨2000, 6, 16, 0, 0, 0⟩, ⟨2000, 7, 16, 0, 0, 0⟩)] := by decide +kernel

/-- C95 is false of the representative of three times grouped together: it is the first, not the middle one. -/
theorem C95_middle_counterexample :
    (getGrouping ⟨[⟨2000, 1, 1, 0, 0, 0⟩, ⟨2000, 1, 2, 0, 0, 0⟩, ⟨2000, 1, 3, 0, 0, 0⟩], none, "time", false, []⟩ .all).toOption.map (·.groups.map Group.time) =
      some [⟨2000, 1, 1, 0, 0, 0⟩] := by decide

/-! ## Examples -/

example : Sound ⟨[⟨2000, 7, 1, 0, 0, 0⟩, ⟨2001, 1, 1, 0, 0, 0⟩], none, "time", true, ["time", "bounds"]⟩ ∧ Groupable ["month", "year"] := by
  refine ⟨⟨by simp, by simp⟩, by simp, ?_⟩
  intro n hn
  simp at hn
  rcases hn with rfl | rfl <;> simp

example : (getGrouping ⟨[⟨2000, 7, 1, 0, 0, 0⟩, ⟨2001, 1, 1, 0, 0, 0⟩, ⟨2001, 1, 2, 0, 0, 0⟩], none, "time", true, ["time", "bounds"]⟩ (.parts ["month", "year"])).toOption =
    some ⟨[⟨[true, false, false], (⟨2000, 7, 1, 0, 0, 0⟩, ⟨2000, 7, 1, 0, 0, 0⟩), ⟨2000, 7, 16, 0, 0, 0⟩, .parts [some 2000, some 7, none, none, none, none]⟩,
      ⟨[false, true, true], (⟨2001, 1, 1, 0, 0, 0⟩, ⟨2001, 1, 2, 0, 0, 0⟩), ⟨2001, 1, 16, 0, 0, 0⟩, .parts [some 2001, some 1, none, none, none, none]⟩],
      "time", true, ["time", "bounds"]⟩ := by decide

example : (getGrouping ⟨[⟨2000, 1, 16, 0, 0, 0⟩, ⟨2000, 7, 16, 0, 0, 0⟩, ⟨2001, 1, 16, 0, 0, 0⟩, ⟨2001, 8, 16, 0, 0, 0⟩], none, "time", true, ["time", "bounds"]⟩
      (.seasonal true [[6, 7, 8], [12, 1, 2]])).toOption.map (·.groups.map fun g => (g.members, g.time)) =
    some [([true, false, false, false], ⟨2000, 1, 16, 0, 0, 0⟩), ([false, true, false, false], ⟨2000, 7, 16, 0, 0, 0⟩),
      ([false, false, true, false], ⟨2001, 1, 16, 0, 0, 0⟩), ([false, false, false, true], ⟨2001, 8, 16, 0, 0, 0⟩)] := by decide +kernel

example : [[6, 7, 8], [12, 1, 2]].Pairwise (fun s t => SeasonBefore false s t ∨ SeasonBefore false t s) ∧ Contiguous [6, 7, 8] := by
  refine ⟨?_, ?_⟩
  · simp [SeasonBefore]
  · intro a ha b hb m h1 h2
    simp at ha hb ⊢
    omega

example : ¬ Groupable ["hour"] := by
  rintro ⟨-, h⟩
  simpa using h "hour" (by simp)

end Ocgis.Props
