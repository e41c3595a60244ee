import Verif.Proofs.Temporal
import Verif.Proofs.ScatterGather
/-!
# Lemmas on seasons
-/
namespace Ocgis.Temporal
open Ocgis.Spec

/-! ## Splitting a season -/

theorem mem_insertDesc (x y : Int) (l : List Int) : y ∈ insertDesc x l ↔ y = x ∨ y ∈ l := by
  induction l with
  | nil => simp [insertDesc]
  | cons a as ih =>
    simp only [insertDesc]
    split
    · simp
    · simp only [List.mem_cons, ih]; grind

theorem insertDesc_sorted (x : Int) (l : List Int) (h : l.Pairwise (· ≥ ·)) : (insertDesc x l).Pairwise (· ≥ ·) := by
  induction l with
  | nil => simp [insertDesc]
  | cons a as ih =>
    simp only [insertDesc]
    rw [List.pairwise_cons] at h
    split
    · rename_i hle
      rw [List.pairwise_cons]
      refine ⟨?_, List.pairwise_cons.2 h⟩
      intro b hb
      rcases List.mem_cons.1 hb with rfl | hb
      · exact hle
      · have := h.1 b hb; omega
    · rw [List.pairwise_cons]
      refine ⟨?_, ih h.2⟩
      intro b hb
      rcases (mem_insertDesc _ _ _).1 hb with rfl | hb
      · omega
      · exact h.1 b hb

theorem mem_sortDesc (y : Int) (l : List Int) : y ∈ sortDesc l ↔ y ∈ l := by
  induction l with
  | nil => simp [sortDesc]
  | cons a as ih =>
    have : sortDesc (a :: as) = insertDesc a (sortDesc as) := rfl
    rw [this, mem_insertDesc, ih, List.mem_cons]

theorem sortDesc_sorted (l : List Int) : (sortDesc l).Pairwise (· ≥ ·) := by
  induction l with
  | nil => simp [sortDesc]
  | cons a as ih =>
    have : sortDesc (a :: as) = insertDesc a (sortDesc as) := rfl
    rw [this]; exact insertDesc_sorted _ _ ih

/-- A descending list of consecutive months is not split. -/
theorem splitRuns_interval (l : List Int) (hl : l ≠ []) (hs : l.Pairwise (· ≥ ·))
    (hc : ∀ x ∈ l, ∀ z ∈ l, ∀ m, z ≤ m → m ≤ x → m ∈ l) : splitRuns l = [l] := by
  induction l with
  | nil => exact absurd rfl hl
  | cons a as ih =>
    cases as with
    | nil => rfl
    | cons b bs =>
      rw [List.pairwise_cons] at hs
      have hab : a ≥ b := hs.1 b (by simp)
      have hmax : ∀ c ∈ b :: bs, c ≤ b := by
        intro c hc'
        rcases List.mem_cons.1 hc' with rfl | hc'
        · omega
        · exact (List.pairwise_cons.1 hs.2).1 c hc'
      have hdiff : ¬ (a - b).natAbs > 1 := by
        intro hgt
        have := hc a (by simp) b (by simp) (a - 1) (by omega) (by omega)
        rcases List.mem_cons.1 this with h | h
        · omega
        · have := hmax _ h; omega
      have := ih (by simp) hs.2 (by
        intro x hx z hz m h1 h2
        have := hc x (List.mem_cons_of_mem _ hx) z (List.mem_cons_of_mem _ hz) m h1 h2
        rcases List.mem_cons.1 this with rfl | h
        · have := hmax x hx
          have : m = b := by omega
          simp [this]
        · exact h)
      simp only [splitRuns, if_neg hdiff]
      rw [this]

theorem splitRuns_two (h w : List Int) (hh : h ≠ []) (hw : w ≠ []) (hs : h.Pairwise (· ≥ ·)) (ws : w.Pairwise (· ≥ ·))
    (hc : ∀ x ∈ h, ∀ z ∈ h, ∀ m, z ≤ m → m ≤ x → m ∈ h) (wc : ∀ x ∈ w, ∀ z ∈ w, ∀ m, z ≤ m → m ≤ x → m ∈ w)
    (hgap : ∀ x ∈ h, ∀ z ∈ w, z + 1 < x) : splitRuns (h ++ w) = [h, w] := by
  induction h with
  | nil => exact absurd rfl hh
  | cons a as ih =>
    cases as with
    | nil =>
      cases w with
      | nil => exact absurd rfl hw
      | cons b bs =>
        have := hgap a (by simp) b (by simp)
        have hd : (a - b).natAbs > 1 := by omega
        simp only [List.cons_append, List.nil_append, splitRuns, if_pos hd]
        rw [splitRuns_interval _ hw ws wc]
    | cons b bs =>
      rw [List.pairwise_cons] at hs
      have hab : a ≥ b := hs.1 b (by simp)
      have hmax : ∀ c ∈ b :: bs, c ≤ b := by
        intro c hc'
        rcases List.mem_cons.1 hc' with rfl | hc'
        · omega
        · exact (List.pairwise_cons.1 hs.2).1 c hc'
      have hdiff : ¬ (a - b).natAbs > 1 := by
        intro hgt
        have := hc a (by simp) b (by simp) (a - 1) (by omega) (by omega)
        rcases List.mem_cons.1 this with h | h
        · omega
        · have := hmax _ h; omega
      have := ih (by simp) hs.2 (by
        intro x hx z hz m h1 h2
        have := hc x (List.mem_cons_of_mem _ hx) z (List.mem_cons_of_mem _ hz) m h1 h2
        rcases List.mem_cons.1 this with rfl | h
        · have := hmax x hx
          have : m = b := by omega
          simp [this]
        · exact h) (fun x hx z hz => hgap x (List.mem_cons_of_mem _ hx) z hz)
      simp only [List.cons_append] at this ⊢
      simp only [splitRuns, if_neg hdiff]
      rw [this]

theorem filter_append_desc (l : List Int) (hs : l.Pairwise (· ≥ ·)) (b : Int) :
    l = l.filter (fun m => decide (b ≤ m)) ++ l.filter (fun m => !decide (b ≤ m)) := by
  induction l with
  | nil => rfl
  | cons a as ih =>
    rw [List.pairwise_cons] at hs
    by_cases hb : b ≤ a
    · simp only [List.filter_cons, hb, decide_true, if_true, Bool.not_true, Bool.false_eq_true, if_false, List.cons_append]
      rw [← ih hs.2]
    · have h1 : as.filter (fun m => decide (b ≤ m)) = [] := by
        rw [List.filter_eq_nil_iff]
        intro c hc
        have := hs.1 c hc
        simp; omega
      have h2 : as.filter (fun m => !decide (b ≤ m)) = as := by
        rw [List.filter_eq_self]
        intro c hc
        have := hs.1 c hc
        simp; omega
      simp [hb, h1, h2]

/-! ## Spec facts -/

theorem wraps_eq (s : List Int) : wraps s = true ↔ 12 ∈ s ∧ 1 ∈ s ∧ ¬ ∀ m, 1 ≤ m → m ≤ 12 → m ∈ s := by
  simp only [wraps, Bool.and_eq_true, List.contains_eq_mem, decide_eq_true_eq, Bool.not_eq_true', and_assoc]
  refine and_congr_right fun _ => and_congr_right fun _ => ?_
  rw [← Bool.not_eq_true, List.all_eq_true]
  constructor
  · intro h hc; apply h; intro x hx
    simp at hx ⊢
    apply hc <;> omega
  · intro h hc; apply h; intro m h1 h2
    have := hc m (by simp; omega)
    simpa using this

theorem afterNewYear_eq (s : List Int) (m : Int) : afterNewYear s m = true ↔ ∀ k, 1 ≤ k → k ≤ m → k ∈ s := by
  simp only [afterNewYear, List.all_eq_true, List.mem_range, List.contains_eq_mem, decide_eq_true_eq]
  constructor
  · intro h k h1 h2
    have := h (k - 1).toNat (by omega)
    rwa [show (((k - 1).toNat : Nat) : Int) + 1 = k from by omega] at this
  · intro h k hk
    exact h _ (by omega) (by omega)

/-- Region of a year and some months. -/
def toRegion (p : Int × List Int) : Region := { month := some p.2, year := some [p.1] }

/-- The sub-regions `ps` describe the season `s` beginning in year `y`. -/
structure Describes (y : Int) (s : List Int) (ps : List (Int × List Int)) : Prop where
  nonempty : ∀ p ∈ ps, p.2 ≠ []
  year : ∀ p ∈ ps, p.1 = y ∨ p.1 = y + 1
  distinct : ∀ p ∈ ps, ∀ q ∈ ps, p.1 = q.1 → p = q
  cells : ∀ q : Int × Int, q ∈ seasonMonths y s ↔ ∃ p ∈ ps, q.1 = p.1 ∧ q.2 ∈ p.2

theorem describes_within (y : Int) (s : List Int) (hs : s ≠ []) (hw : wraps s = false) : Describes y s [(y, s)] where
  nonempty := by simpa using hs
  year := by simp
  distinct := by simp
  cells := by
    intro q
    simp only [seasonMonths, hw, Bool.false_and, Bool.false_eq_true, if_false, List.mem_map, List.mem_singleton]
    constructor
    · rintro ⟨m, hm, rfl⟩; exact ⟨_, rfl, rfl, hm⟩
    · rintro ⟨p, rfl, h1, h2⟩
      exact ⟨q.2, h2, by rw [Prod.ext_iff]; exact ⟨h1.symm, rfl⟩⟩

theorem isInterannual_eq (s : List Int) : isInterannual s = true ↔ 12 ∈ s ∧ 1 ∈ s := by
  simp [isInterannual]

theorem seasonRegion_spec (years : List Int) (hcons : ∀ (i : Nat) y z, years[i]? = some y → years[i + 1]? = some z → z = y + 1)
    (ii : Nat) (y : Int) (hy : years[ii]? = some y) (s : List Int) (hs : SeasonOk s) :
    (wraps s = true ∧ years[ii + 1]? = none ∧ seasonRegion years ii y false s = .ok none) ∨
    ((wraps s = true → years[ii + 1]? ≠ none) ∧
      ∃ ps, seasonRegion years ii y false s = .ok (some (ps.map toRegion)) ∧ Describes y s ps) := by
  obtain ⟨hne, hcase⟩ := hs
  rcases hcase with hni | hall | ⟨a, b, ha, hab, hb, hmem⟩
  · have hw : wraps s = false := by
      rw [← Bool.not_eq_true, wraps_eq]; intro h; exact hni ⟨h.1, h.2.1⟩
    have hi : isInterannual s = false := by rw [← Bool.not_eq_true, isInterannual_eq]; exact hni
    right
    refine ⟨by simp [hw], [(y, s)], ?_, describes_within y s hne hw⟩
    simp [seasonRegion, hi, toRegion]
  · have hw : wraps s = false := by
      rw [← Bool.not_eq_true, wraps_eq]; intro h; exact h.2.2 fun m h1 h2 => (hall m).2 ⟨h1, h2⟩
    have hi : isInterannual s = true := by rw [isInterannual_eq]; exact ⟨(hall _).2 (by omega), (hall _).2 (by omega)⟩
    have hsplit : splitRuns (sortDesc s) = [sortDesc s] := by
      apply splitRuns_interval _ _ (sortDesc_sorted s)
      · intro x hx z hz m h1 h2
        rw [mem_sortDesc, hall] at *
        omega
      · intro h
        have : (12 : Int) ∈ sortDesc s := (mem_sortDesc _ _).2 ((hall _).2 (by omega))
        rw [h] at this; simp at this
    right
    refine ⟨by simp [hw], [(y, sortDesc s)], ?_, ?_⟩
    · simp [seasonRegion, hi, hsplit, subRegions, hy, toRegion]
    · have hd := describes_within y s hne hw
      refine ⟨?_, by simp, by simp, ?_⟩
      · intro p hp
        simp only [List.mem_singleton] at hp
        subst hp
        intro h
        have : (12 : Int) ∈ sortDesc s := (mem_sortDesc _ _).2 ((hall _).2 (by omega))
        simp only at h
        rw [h] at this; simp at this
      · intro q
        rw [hd.cells]
        simp [mem_sortDesc]
  · have h12 : (12 : Int) ∈ s := (hmem _).2 (by omega)
    have h1 : (1 : Int) ∈ s := (hmem _).2 (by omega)
    have hw : wraps s = true := by
      rw [wraps_eq]; refine ⟨h12, h1, fun h => ?_⟩
      have := (hmem (a + 1)).1 (h _ (by omega) (by omega)); omega
    have hi : isInterannual s = true := by rw [isInterannual_eq]; exact ⟨h12, h1⟩
    have hmh : ∀ m, m ∈ (sortDesc s).filter (fun m => decide (b ≤ m)) ↔ b ≤ m ∧ m ≤ 12 := by
      intro m; simp only [List.mem_filter, mem_sortDesc, hmem, decide_eq_true_eq]; omega
    have hmw : ∀ m, m ∈ (sortDesc s).filter (fun m => !decide (b ≤ m)) ↔ 1 ≤ m ∧ m ≤ a := by
      intro m; simp only [List.mem_filter, mem_sortDesc, hmem, Bool.not_eq_true', decide_eq_false_iff_not]; omega
    have hsd := sortDesc_sorted s
    have happ := filter_append_desc (sortDesc s) hsd b
    have hps : ((sortDesc s).filter (fun m => decide (b ≤ m))).Pairwise (· ≥ ·) := List.Pairwise.filter _ hsd
    have wps : ((sortDesc s).filter (fun m => !decide (b ≤ m))).Pairwise (· ≥ ·) := List.Pairwise.filter _ hsd
    generalize (sortDesc s).filter (fun m => decide (b ≤ m)) = h at *
    generalize (sortDesc s).filter (fun m => !decide (b ≤ m)) = w at *
    have hh : h ≠ [] := by rintro rfl; have := (hmh 12).2 (by omega); simp at this
    have hww : w ≠ [] := by rintro rfl; have := (hmw 1).2 (by omega); simp at this
    have hsplit : splitRuns (sortDesc s) = [h, w] := by
      rw [happ]
      apply splitRuns_two _ _ hh hww hps wps
      · intro x hx z hz m e1 e2; rw [hmh] at *; omega
      · intro x hx z hz m e1 e2; rw [hmw] at *; omega
      · intro x hx z hz; rw [hmh] at hx; rw [hmw] at hz; omega
    cases hy' : years[ii + 1]? with
    | none =>
      left
      refine ⟨hw, rfl, ?_⟩
      simp [seasonRegion, hi, hsplit, subRegions, hy, hy']
    | some z =>
      right
      refine ⟨by simp, [(y, h), (z, w)], ?_, ?_⟩
      · simp [seasonRegion, hi, hsplit, subRegions, hy, hy', toRegion]
      · have hz := hcons ii y z hy hy'
        subst hz
        refine ⟨by simp [hh, hww], by simp, ?_, ?_⟩
        · intro p hp q hq hpq
          simp only [List.mem_cons, List.not_mem_nil, or_false] at hp hq
          rcases hp with rfl | rfl <;> rcases hq with rfl | rfl <;> first | rfl | (simp only at hpq; omega)
        · have hafter : ∀ m, m ∈ s → (afterNewYear s m = true ↔ m ≤ a) := by
            intro m hm
            rw [afterNewYear_eq]
            constructor
            · intro hk
              rcases (hmem m).1 hm with h | h
              · exact h.2
              · have := (hmem (a + 1)).1 (hk _ (by omega) (by omega)); omega
            · intro hle k h1 h2
              exact (hmem k).2 (by omega)
          intro q
          obtain ⟨qy, qm⟩ := q
          simp only [seasonMonths, hw, Bool.true_and, List.mem_map, Prod.mk.injEq, List.mem_cons, List.not_mem_nil, or_false,
            exists_eq_or_imp, exists_eq_left]
          rw [hmh, hmw]
          constructor
          · rintro ⟨m, hm, hy1, rfl⟩
            have := hafter m hm
            have hm2 := (hmem m).1 hm
            split at hy1
            · rename_i ht
              have := this.1 ht
              exact .inr ⟨hy1.symm, by omega, this⟩
            · rename_i ht
              have : ¬ m ≤ a := fun h => ht (this.2 h)
              exact .inl ⟨hy1.symm, by omega, by omega⟩
          · rintro (⟨e, h1, h2⟩ | ⟨e, h1, h2⟩)
            · have hm : qm ∈ s := (hmem _).2 (by omega)
              refine ⟨qm, hm, ?_, rfl⟩
              rw [if_neg]; · exact e.symm
              rw [hafter _ hm]; omega
            · have hm : qm ∈ s := (hmem _).2 (by omega)
              refine ⟨qm, hm, ?_, rfl⟩
              rw [if_pos]; · exact e.symm
              rw [hafter _ hm]; exact h2

/-! ## Regions of a season -/

theorem toRegion_holds (p : Int × List Int) (d : Date) : (toRegion p).holds d = true ↔ d.year = p.1 ∧ d.month ∈ p.2 := by
  simp [toRegion, Region.holds, and_comm]

/-- The indices selected by a region. -/
def regionIdx (dates : List Date) (r : Region) : List Nat :=
  (List.range dates.length).filter fun i => match dates[i]? with | some d => r.holds d | none => false

theorem mem_regionIdx (dates : List Date) (r : Region) (i : Nat) :
    i ∈ regionIdx dates r ↔ ∃ d, dates[i]? = some d ∧ r.holds d = true := by
  simp only [regionIdx, List.mem_filter, List.mem_range]
  constructor
  · rintro ⟨hi, h⟩
    rw [List.getElem?_eq_getElem hi] at h ⊢
    exact ⟨_, rfl, h⟩
  · rintro ⟨d, hd, h⟩
    refine ⟨(List.getElem?_eq_some_iff.1 hd).1, ?_⟩
    rw [hd]; exact h

theorem timeRegion_toRegion (dates : List Date) (p : Int × List Int) :
    timeRegion dates (toRegion p) =
      if regionIdx dates (toRegion p) = [] then .error .emptySubset else .ok (regionIdx dates (toRegion p)) := by
  have h : ¬((toRegion p).month = none ∧ (toRegion p).year = none) := by simp [toRegion]
  unfold timeRegion
  rw [if_neg h]
  rfl

theorem regionIdx_nil (dates : List Date) (p : Int × List Int) :
    regionIdx dates (toRegion p) = [] ↔ ¬ ∃ d ∈ dates, d.year = p.1 ∧ d.month ∈ p.2 := by
  rw [List.eq_nil_iff_forall_not_mem]
  constructor
  · rintro h ⟨d, hd, h1⟩
    obtain ⟨i, hi⟩ := List.mem_iff_getElem?.1 hd
    exact h i ((mem_regionIdx _ _ _).2 ⟨d, hi, (toRegion_holds _ _).2 h1⟩)
  · intro h i hi
    obtain ⟨d, hd, h1⟩ := (mem_regionIdx _ _ _).1 hi
    exact h ⟨d, List.mem_of_getElem? hd, (toRegion_holds _ _).1 h1⟩

theorem regionEmpty_eq (dates : List Date) (ps : List (Int × List Int)) :
    regionEmpty dates (ps.map toRegion) = true ↔ ∃ p ∈ ps, ¬ ∃ d ∈ dates, d.year = p.1 ∧ d.month ∈ p.2 := by
  simp only [regionEmpty, List.any_map, List.any_eq_true, Function.comp_def]
  refine exists_congr fun p => and_congr_right fun _ => ?_
  rw [← regionIdx_nil, timeRegion_toRegion]
  by_cases h : regionIdx dates (toRegion p) = []
  · simp [h]
  · simp [h]

theorem noData_eq (dates : List Date) (years : List Int) (y : Int) (s : List Int) (ps : List (Int × List Int))
    (hd : Describes y s ps) (hw : wraps s = true → y + 1 ∈ years) :
    noData dates years (y, s) = regionEmpty dates (ps.map toRegion) := by
  rw [Bool.eq_iff_iff, regionEmpty_eq]
  have h1 : (!wraps s || years.contains (y + 1)) = true := by
    cases h : wraps s
    · rfl
    · simp [hw h]
  simp only [noData, h1, Bool.true_and, List.any_eq_true, List.mem_cons, List.not_mem_nil, or_false, Bool.and_eq_true,
    Bool.not_eq_true', decide_eq_true_eq]
  have key : ∀ y', (∃ q ∈ seasonMonths y s, q.1 = y') ∧
      (dates.any fun d => decide (d.year = y') && (seasonMonths y s).contains (d.year, d.month)) = false ↔
      ∃ p ∈ ps, p.1 = y' ∧ ¬ ∃ d ∈ dates, d.year = p.1 ∧ d.month ∈ p.2 := by
    intro y'
    have haux : ∀ p ∈ ps, p.1 = y' → ((dates.any fun d => decide (d.year = y') && (seasonMonths y s).contains (d.year, d.month)) = false
        ↔ ¬ ∃ d ∈ dates, d.year = p.1 ∧ d.month ∈ p.2) := by
      intro p hp hpy
      rw [← Bool.not_eq_true]
      apply not_congr
      simp only [List.any_eq_true, Bool.and_eq_true, decide_eq_true_eq, List.contains_eq_mem]
      refine exists_congr fun d => and_congr_right fun _ => ?_
      rw [hpy]
      refine and_congr_right fun hdy => ?_
      rw [hd.cells]
      constructor
      · rintro ⟨p', hp', e1, e2⟩
        have := hd.distinct p hp p' hp' (by simp only at e1; omega)
        rw [this]; exact e2
      · intro h; exact ⟨p, hp, by simp only; omega, h⟩
    constructor
    · rintro ⟨⟨q, hq, hqy⟩, hnone⟩
      obtain ⟨p, hp, e1, e2⟩ := (hd.cells q).1 hq
      have hpy : p.1 = y' := by omega
      exact ⟨p, hp, hpy, (haux p hp hpy).1 hnone⟩
    · rintro ⟨p, hp, hpy, hnone⟩
      refine ⟨?_, (haux p hp hpy).2 hnone⟩
      obtain ⟨m, hm⟩ := List.exists_mem_of_ne_nil _ (hd.nonempty p hp)
      exact ⟨(p.1, m), (hd.cells _).2 ⟨p, hp, rfl, hm⟩, hpy⟩
  constructor
  · rintro ⟨y', _, h⟩
    obtain ⟨p, hp, _, h⟩ := (key y').1 h
    exact ⟨p, hp, h⟩
  · rintro ⟨p, hp, h⟩
    exact ⟨p.1, hd.year p hp, (key p.1).2 ⟨p, hp, rfl, h⟩⟩

theorem seasonComplete_eq (dates : List Date) (y : Int) (s : List Int) (ps : List (Int × List Int)) (hd : Describes y s ps) :
    seasonComplete dates y s = true ↔ ∀ p ∈ ps, ∀ m ∈ p.2, ∃ d ∈ dates, d.year = p.1 ∧ d.month = m := by
  simp only [seasonComplete, List.all_eq_true, List.any_eq_true, Bool.and_eq_true, decide_eq_true_eq]
  constructor
  · intro h p hp m hm
    exact h (p.1, m) ((hd.cells _).2 ⟨p, hp, rfl, hm⟩)
  · intro h q hq
    obtain ⟨p, hp, e1, e2⟩ := (hd.cells q).1 hq
    rw [e1]; exact h p hp q.2 e2

theorem empty_not_complete (dates : List Date) (y : Int) (s : List Int) (ps : List (Int × List Int)) (hd : Describes y s ps)
    (he : regionEmpty dates (ps.map toRegion) = true) : seasonComplete dates y s = false := by
  rw [← Bool.not_eq_true, seasonComplete_eq dates y s ps hd]
  intro h
  obtain ⟨p, hp, hno⟩ := (regionEmpty_eq _ _).1 he
  obtain ⟨m, hm⟩ := List.exists_mem_of_ne_nil _ (hd.nonempty p hp)
  obtain ⟨d, hd', h1, h2⟩ := h p hp m hm
  exact hno ⟨d, hd', h1, by rw [h2]; exact hm⟩

theorem monthsComplete_eq (dates : List Date) (p : Int × List Int) :
    monthsComplete dates (toRegion p) (regionIdx dates (toRegion p)) = true ↔
      ∀ m ∈ p.2, ∃ d ∈ dates, d.year = p.1 ∧ d.month = m := by
  have hmem : ∀ m, m ∈ (regionIdx dates (toRegion p)).filterMap (fun i => (dates[i]?).map (·.month)) ↔
      ∃ d ∈ dates, (d.year = p.1 ∧ d.month ∈ p.2) ∧ d.month = m := by
    intro m
    simp only [List.mem_filterMap, Option.map_eq_some_iff]
    constructor
    · rintro ⟨i, hi, d, hd, rfl⟩
      obtain ⟨d', hd', h⟩ := (mem_regionIdx _ _ _).1 hi
      rw [hd] at hd'; cases hd'
      exact ⟨d, List.mem_of_getElem? hd, (toRegion_holds _ _).1 h, rfl⟩
    · rintro ⟨d, hd, h, rfl⟩
      obtain ⟨i, hi⟩ := List.mem_iff_getElem?.1 hd
      exact ⟨i, (mem_regionIdx _ _ _).2 ⟨d, hi, (toRegion_holds _ _).2 h⟩, d, hi, rfl⟩
  simp only [monthsComplete, Bool.and_eq_true, List.all_eq_true, List.contains_eq_mem, decide_eq_true_eq, hmem]
  simp only [toRegion, Option.getD_some]
  constructor
  · rintro ⟨_, h⟩ m hm
    obtain ⟨d, hd, h1, h2⟩ := h m hm
    exact ⟨d, hd, h1.1, h2⟩
  · intro h
    refine ⟨?_, ?_⟩
    · rintro m ⟨d, hd, h1, rfl⟩; exact h1.2
    · intro m hm
      obtain ⟨d, hd, h1, h2⟩ := h m hm
      exact ⟨d, hd, ⟨h1, by rw [h2]; exact hm⟩, h2⟩

theorem subGroup_ok (dates : List Date) (ps : List (Int × List Int)) (he : regionEmpty dates (ps.map toRegion) = false) :
    ∃ idx c, subGroup dates (ps.map toRegion) = .ok (idx, c) ∧
      (∀ i, i ∈ idx ↔ ∃ d, dates[i]? = some d ∧ ∃ p ∈ ps, d.year = p.1 ∧ d.month ∈ p.2) ∧
      (c = true ↔ ∀ p ∈ ps, ∀ m ∈ p.2, ∃ d ∈ dates, d.year = p.1 ∧ d.month = m) := by
  induction ps with
  | nil => exact ⟨[], true, rfl, by simp, by simp⟩
  | cons p ps ih =>
    have he' := he
    rw [← Bool.not_eq_true, regionEmpty_eq] at he
    have hhead : regionIdx dates (toRegion p) ≠ [] := by
      intro h; rw [regionIdx_nil] at h; exact he ⟨p, by simp, h⟩
    have htail : regionEmpty dates (ps.map toRegion) = false := by
      rw [← Bool.not_eq_true, regionEmpty_eq]
      rintro ⟨q, hq, h⟩; exact he ⟨q, List.mem_cons_of_mem _ hq, h⟩
    obtain ⟨idx, c, h1, h2, h3⟩ := ih htail
    refine ⟨regionIdx dates (toRegion p) ++ idx, monthsComplete dates (toRegion p) (regionIdx dates (toRegion p)) && c, ?_, ?_, ?_⟩
    · simp only [List.map_cons, subGroup]
      rw [timeRegion_toRegion, if_neg hhead, h1]
    · intro i
      rw [List.mem_append, mem_regionIdx, h2]
      constructor
      · rintro (⟨d, hd, h⟩ | ⟨d, hd, q, hq, h⟩)
        · exact ⟨d, hd, p, by simp, (toRegion_holds _ _).1 h⟩
        · exact ⟨d, hd, q, List.mem_cons_of_mem _ hq, h⟩
      · rintro ⟨d, hd, q, hq, h⟩
        rcases List.mem_cons.1 hq with rfl | hq
        · exact .inl ⟨d, hd, (toRegion_holds _ _).2 h⟩
        · exact .inr ⟨d, hd, q, hq, h⟩
    · rw [Bool.and_eq_true, monthsComplete_eq, h3]
      simp

theorem seasonGroup_eq (dates : List Date) (y : Int) (s : List Int) (ps : List (Int × List Int)) (hd : Describes y s ps)
    (idx : List Nat) (hidx : ∀ i, i ∈ idx ↔ ∃ d, dates[i]? = some d ∧ ∃ p ∈ ps, d.year = p.1 ∧ d.month ∈ p.2) :
    (List.range dates.length).map (fun i => idx.contains i) = seasonGroup dates y s := by
  apply List.ext_getElem
  · simp [seasonGroup]
  · intro i h1 h2
    simp only [List.length_map, List.length_range] at h1
    simp only [List.getElem_map, List.getElem_range, seasonGroup]
    rw [Bool.eq_iff_iff]
    simp only [List.contains_eq_mem, decide_eq_true_eq, hidx, hd.cells]
    rw [List.getElem?_eq_getElem h1]
    simp

/-! ## Removal -/

theorem popAll_le_one {α : Type _} (l : List α) (e : α → Bool)
    (h : ((List.range l.length).filter fun i => match l[i]? with | some r => e r | none => false).length ≤ 1) :
    popAll ((List.range l.length).filter fun i => match l[i]? with | some r => e r | none => false) l =
      .ok (l.filter fun r => !e r) := by
  have hmem : ∀ i, i ∈ (List.range l.length).filter (fun i => match l[i]? with | some r => e r | none => false) ↔
      ∃ r, l[i]? = some r ∧ e r = true := by
    intro i
    simp only [List.mem_filter, List.mem_range]
    constructor
    · rintro ⟨hi, h⟩
      rw [List.getElem?_eq_getElem hi] at h ⊢
      exact ⟨_, rfl, h⟩
    · rintro ⟨r, hr, h⟩
      refine ⟨(List.getElem?_eq_some_iff.1 hr).1, ?_⟩
      rw [hr]; exact h
  generalize (List.range l.length).filter (fun i => match l[i]? with | some r => e r | none => false) = rm at *
  match rm, h, hmem with
  | [], _, hmem =>
    simp only [popAll]
    congr 1; symm
    rw [List.filter_eq_self]
    intro r hr
    obtain ⟨i, hi⟩ := List.mem_iff_getElem?.1 hr
    cases he : e r
    · rfl
    · have := (hmem i).2 ⟨r, hi, he⟩; simp at this
  | [x], _, hmem =>
    obtain ⟨r, hr, he⟩ := (hmem x).1 (by simp)
    have hx := (List.getElem?_eq_some_iff.1 hr).1
    simp only [popAll, if_pos hx]
    congr 1
    have hrx : l[x] = r := (List.getElem?_eq_some_iff.1 hr).2
    have hsplit : l = l.take x ++ r :: l.drop (x + 1) := by
      rw [← hrx, List.getElem_cons_drop, List.take_append_drop]
    have hother : ∀ i r', l[i]? = some r' → i ≠ x → e r' = false := by
      intro i r' hi hne
      cases he' : e r'
      · rfl
      · have := (hmem i).2 ⟨r', hi, he'⟩; simp at this; exact absurd this hne
    rw [List.eraseIdx_eq_take_drop_succ]
    conv => rhs; rw [hsplit]
    rw [List.filter_append, List.filter_cons]
    simp only [he, Bool.not_true, Bool.false_eq_true, if_false]
    congr 1
    · symm; rw [List.filter_eq_self]
      intro r' hr'
      obtain ⟨i, hi⟩ := List.mem_iff_getElem?.1 hr'
      have hlt : i < x := by have := (List.getElem?_eq_some_iff.1 hi).1; simp at this; omega
      rw [List.getElem?_take_of_lt hlt] at hi
      simp [hother i r' hi (by omega)]
    · symm; rw [List.filter_eq_self]
      intro r' hr'
      obtain ⟨i, hi⟩ := List.mem_iff_getElem?.1 hr'
      rw [List.getElem?_drop] at hi
      simp [hother _ r' hi (by omega)]

theorem filter_range_length {α : Type _} (l : List α) (e : α → Bool) :
    ((List.range l.length).filter fun i => match l[i]? with | some r => e r | none => false).length = (l.filter e).length := by
  induction l with
  | nil => rfl
  | cons a as ih =>
    rw [List.length_cons, List.range_succ_eq_map, List.filter_cons, List.filter_cons, List.filter_map]
    have : ((fun i => match (a :: as)[i]? with | some r => e r | none => false) ∘ Nat.succ) =
        (fun i => match as[i]? with | some r => e r | none => false) := by
      funext i; simp
    rw [this]
    simp only [List.getElem?_cons_zero]
    split <;> simp [ih]

/-! ## All seasons -/

theorem groups_of_candidates (dates : List Date) (years : List Int) (f : Int × List Int → Option (List Region)) (cands : List (Int × List Int))
    (hf : ∀ c ∈ cands, match f c with
      | none => seasonComplete dates c.1 c.2 = false ∧ noData dates years c = false
      | some rs => ∃ ps, rs = ps.map toRegion ∧ Describes c.1 c.2 ps ∧ (wraps c.2 = true → c.1 + 1 ∈ years)) :
    ((cands.filterMap f).filter (regionEmpty dates)).length = (cands.filter (noData dates years)).length ∧
    booleanGroups dates ((cands.filterMap f).filter fun r => !regionEmpty dates r) =
      .ok ((cands.filter fun c => seasonComplete dates c.1 c.2).map fun c => seasonGroup dates c.1 c.2) := by
  induction cands with
  | nil => exact ⟨rfl, rfl⟩
  | cons c cs ih =>
    obtain ⟨ih1, ih2⟩ := ih (fun c hc => hf c (List.mem_cons_of_mem _ hc))
    have hc := hf c (by simp)
    cases hfc : f c with
    | none =>
      rw [hfc] at hc
      simp only at hc
      refine ⟨?_, ?_⟩
      · rw [List.filterMap_cons_none hfc, List.filter_cons]
        simp [hc.2, ih1]
      · rw [List.filterMap_cons_none hfc, List.filter_cons]
        simp [hc.1, ih2]
    | some rs =>
      rw [hfc] at hc
      obtain ⟨ps, rfl, hd, hwy⟩ := hc
      have hnd : noData dates years c = regionEmpty dates (ps.map toRegion) := noData_eq dates years c.1 c.2 ps hd hwy
      rw [List.filterMap_cons_some hfc]
      refine ⟨?_, ?_⟩
      · rw [List.filter_cons, List.filter_cons, hnd]
        split <;> simp [ih1]
      · rw [List.filter_cons (xs := cs)]
        cases he : regionEmpty dates (ps.map toRegion) with
        | true =>
          rw [empty_not_complete dates _ _ ps hd he, List.filter_cons]
          simp [he, ih2]
        | false =>
          obtain ⟨idx, k, h1, h2, h3⟩ := subGroup_ok dates ps he
          rw [← seasonComplete_eq dates c.1 c.2 ps hd] at h3
          have hk : k = seasonComplete dates c.1 c.2 := by rw [Bool.eq_iff_iff]; exact h3
          rw [List.filter_cons]
          simp only [he, Bool.not_false, if_true]
          simp only [booleanGroups, List.mapM_cons, h1] at ih2 ⊢
          cases hm : (List.filter (fun r => !regionEmpty dates r) (cs.filterMap f)).mapM (subGroup dates) with
          | error e => rw [hm] at ih2; cases ih2
          | ok gs =>
            rw [hm] at ih2
            have ih2' : (gs.filter (·.2)).map (fun g => (List.range dates.length).map fun i => g.1.contains i) =
              (cs.filter fun c => seasonComplete dates c.1 c.2).map fun c => seasonGroup dates c.1 c.2 := by
              injection ih2
            show Except.ok _ = _
            congr 1
            rw [List.filter_cons]
            simp only [hk]
            split
            · simp only [List.map_cons]
              rw [ih2', seasonGroup_eq dates c.1 c.2 ps hd idx h2]
            · exact ih2'

theorem consecutive_contains (years : List Int) (hcons : ∀ (i : Nat) y z, years[i]? = some y → years[i + 1]? = some z → z = y + 1)
    (hs : years.Pairwise (· < ·)) (ii : Nat) (y : Int) (hy : years[ii]? = some y) : y + 1 ∈ years ↔ years[ii + 1]? ≠ none := by
  constructor
  · intro h hn
    obtain ⟨j, hj⟩ := List.mem_iff_getElem?.1 h
    have hlen : years.length ≤ ii + 1 := by simpa using hn
    obtain ⟨hj1, hj2⟩ := List.getElem?_eq_some_iff.1 hj
    obtain ⟨hi1, hi2⟩ := List.getElem?_eq_some_iff.1 hy
    have hp := List.pairwise_iff_getElem.1 hs
    rcases Nat.lt_trichotomy j ii with h | h | h
    · have := hp j ii hj1 hi1 h; omega
    · subst h; omega
    · omega
  · intro h
    cases hz : years[ii + 1]? with
    | none => exact absurd hz h
    | some z =>
      have := hcons ii y z hy hz
      subst this
      exact List.mem_of_getElem? hz

theorem rawRegions_eq (seasons : List (List Int)) (dates : List Date) (years : List Int)
    (hyears : years = unique (dates.map (·.year)))
    (hcons : ∀ (i : Nat) y z, years[i]? = some y → years[i + 1]? = some z → z = y + 1)
    (hok : ∀ s ∈ seasons, SeasonOk s) (hone : years.length > 1 ∨ ∀ s ∈ seasons, wraps s = false) :
    ∃ f : Int × List Int → Option (List Region), rawRegions seasons years false = .ok ((seasonYears years seasons).filterMap f) ∧
      ∀ c ∈ seasonYears years seasons, match f c with
      | none => seasonComplete dates c.1 c.2 = false ∧ noData dates years c = false
      | some rs => ∃ ps, rs = ps.map toRegion ∧ Describes c.1 c.2 ps ∧ (wraps c.2 = true → c.1 + 1 ∈ years) := by
  have hsort : years.Pairwise (· < ·) := by rw [hyears]; exact unique_sorted _
  have hnd : years.Nodup := by rw [hyears]; exact unique_nodup _
  have hcand : ∀ c, c ∈ seasonYears years seasons ↔ c.1 ∈ years ∧ c.2 ∈ seasons := by
    intro c
    simp only [seasonYears, List.mem_flatMap, List.mem_map]
    constructor
    · rintro ⟨y, hy, s, hs, rfl⟩; exact ⟨hy, hs⟩
    · rintro ⟨h1, h2⟩; exact ⟨c.1, h1, c.2, h2, rfl⟩
  by_cases hbr : years.length > 1 ∧ seasons.any isInterannual
  · -- the interannual branch
    let g : Int × List Int → Option (List Region) := fun c =>
      match seasonRegion years (years.idxOf c.1) c.1 false c.2 with | .ok (some r) => some r | _ => none
    refine ⟨g, ?_, ?_⟩
    · have hinner : ∀ y ∈ (List.range years.length).zip years,
          (seasons.mapM fun s => seasonRegion years y.1 y.2 false s) = .ok (seasons.map fun s => g (y.2, s)) := by
        intro y hy
        obtain ⟨i, hi⟩ := List.mem_iff_getElem?.1 hy
        rw [List.getElem?_zip_eq_some] at hi
        obtain ⟨h1, h2⟩ := hi
        have hi' : i = y.1 := by
          obtain ⟨hl, he⟩ := List.getElem?_eq_some_iff.1 h1
          simpa using he
        subst hi'
        have hix : years.idxOf y.2 = y.1 := by
          obtain ⟨hl, he⟩ := List.getElem?_eq_some_iff.1 h2
          rw [← he]; exact hnd.idxOf_getElem _ hl
        apply Ocgis.Mpi.mapM_ok
        intro s hs
        simp only [g, hix]
        rcases seasonRegion_spec years hcons y.1 y.2 h2 s (hok s hs) with ⟨_, _, h⟩ | ⟨_, ps, h, _⟩
        · rw [h]
        · rw [h]
      simp only [rawRegions, if_pos hbr]
      rw [Ocgis.Mpi.mapM_ok _ _ (fun y => seasons.map fun s => g (y.2, s)) hinner]
      show Except.ok _ = _
      congr 1
      rw [List.flatMap_map]
      simp only [seasonYears, List.filterMap_flatMap, List.filterMap_map]
      have hz : years = ((List.range years.length).zip years).map (·.2) := by
        rw [List.map_snd_zip]; simp
      conv => rhs; rw [hz]
      rw [List.flatMap_map]
      rfl
    · intro c hc
      obtain ⟨hcy, hcs⟩ := (hcand c).1 hc
      have hil := List.idxOf_lt_length_of_mem hcy
      have hget : years[years.idxOf c.1]? = some c.1 := by
        rw [List.getElem?_eq_getElem hil, List.getElem_idxOf hil]
      have hcc := consecutive_contains years hcons hsort _ _ hget
      rcases seasonRegion_spec years hcons _ c.1 hget c.2 (hok c.2 hcs) with ⟨hw, hn, h⟩ | ⟨hw, ps, h, hd⟩
      · have hnone : g c = none := by simp only [g]; rw [h]
        rw [hnone]
        have hnot : c.1 + 1 ∉ years := by rw [hcc]; simp [hn]
        refine ⟨?_, ?_⟩
        · rw [← Bool.not_eq_true]
          intro hcomp
          simp only [seasonComplete, List.all_eq_true, List.any_eq_true, Bool.and_eq_true, decide_eq_true_eq] at hcomp
          have h1 : (1 : Int) ∈ c.2 := ((wraps_eq _).1 hw).2.1
          have hafter : afterNewYear c.2 1 = true := by
            rw [afterNewYear_eq]; intro k e1 e2
            have : k = 1 := by omega
            subst this; exact h1
          obtain ⟨d, hd, e1, e2⟩ := hcomp (c.1 + 1, 1) (by
            simp only [seasonMonths, List.mem_map]
            exact ⟨1, h1, by simp [hw, hafter]⟩)
          apply hnot
          rw [hyears, mem_unique]
          exact List.mem_map.2 ⟨d, hd, e1⟩
        · simp [noData, hw, hnot]
      · have hsome : g c = some (ps.map toRegion) := by simp only [g]; rw [h]
        rw [hsome]
        exact ⟨ps, rfl, hd, fun hwr => hcc.2 (hw hwr)⟩
  · -- every season within a year
    have hw : ∀ s ∈ seasons, wraps s = false := by
      rcases hone with h | h
      · intro s hs
        rw [← Bool.not_eq_true, wraps_eq]
        intro hc
        exact hbr ⟨h, List.any_eq_true.2 ⟨s, hs, (isInterannual_eq s).2 ⟨hc.1, hc.2.1⟩⟩⟩
      · exact h
    refine ⟨fun c => some [toRegion c], ?_, ?_⟩
    · simp only [rawRegions, if_neg hbr]
      congr 1
      rw [List.filterMap_eq_map']
      simp only [seasonYears, List.map_flatMap, List.map_map]
      rfl
    · intro c hc
      obtain ⟨hcy, hcs⟩ := (hcand c).1 hc
      refine ⟨[c], rfl, ?_, ?_⟩
      · exact describes_within c.1 c.2 (hok _ hcs).1 (hw _ hcs)
      · intro h; rw [hw _ hcs] at h; cases h

end Ocgis.Temporal
