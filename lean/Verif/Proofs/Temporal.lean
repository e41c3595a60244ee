import Verif.Spec.Temporal
/-!
# Lemmas on time axes
-/
namespace Ocgis.Temporal
open Ocgis.Spec

/-! ## Months -/

theorem mkDate_ok {y m d : Int} {t : Date} (h : mkDate y m d = .ok t) :
    t.year = y ∧ t.month = m ∧ t.day = d ∧ 1 ≤ m ∧ m ≤ 12 ∧ 1 ≤ y ∧ y ≤ 9999 := by
  unfold mkDate at h
  split at h
  · next hh => cases h; exact ⟨rfl, rfl, rfl, hh.2.2.1, hh.2.2.2, hh.1, hh.2.1⟩
  · cases h

theorem mkDate_valid {y m d : Int} (h : 1 ≤ y ∧ y ≤ 9999 ∧ 1 ≤ m ∧ m ≤ 12) :
    mkDate y m d = .ok { year := y, month := m, day := d } := by
  unfold mkDate; rw [if_pos h]

theorem mkDate_invalid {y m d : Int} (h : ¬(1 ≤ y ∧ y ≤ 9999 ∧ 1 ≤ m ∧ m ≤ 12)) :
    mkDate y m d = .error .valueError := by
  unfold mkDate; rw [if_neg h]

/-- Months since year 0. -/
def ordinal (d : Date) : Int := 12 * d.year + d.month - 1

theorem monthStep_ok {om c y corr v : Int} {d : Date} {y' corr' : Int} (h : monthStep om c y corr v = .ok (d, y', corr')) :
    ordinal d = 12 * y - corr + om - 1 + v ∧ 12 * y' - corr' = 12 * y - corr ∧ 1 ≤ d.month ∧ d.month ≤ 12 ∧ d.day = c := by
  unfold monthStep at h
  split at h
  · next hd =>
    cases h
    obtain ⟨h1, h2, h3, h4, h5, _⟩ := mkDate_ok hd
    unfold ordinal
    refine ⟨by omega, rfl, by omega, by omega, h3⟩
  · split at h
    · next hd =>
      cases h
      obtain ⟨h1, h2, h3, h4, h5, _⟩ := mkDate_ok hd
      unfold ordinal
      refine ⟨by omega, by omega, by omega, by omega, h3⟩
    · cases h

theorem monthLoop_ok (om c : Int) (vs : List Int) : ∀ (y corr : Int) (ds : List Date), monthLoop om c y corr vs = .ok ds →
    ds.length = vs.length ∧ ∀ (i : Nat) d v, ds[i]? = some d → vs[i]? = some v →
      ordinal d = 12 * y - corr + om - 1 + v ∧ 1 ≤ d.month ∧ d.month ≤ 12 ∧ d.day = c := by
  induction vs with
  | nil => intro y corr ds h; cases h; exact ⟨rfl, by intro i d v h; simp at h⟩
  | cons v vs ih =>
    intro y corr ds h
    unfold monthLoop at h
    split at h
    · cases h
    · next d y' corr' hs =>
      split at h
      · cases h
      · next ds' hl =>
        cases h
        obtain ⟨h1, h2, h3, h4, h5⟩ := monthStep_ok hs
        obtain ⟨hlen, hall⟩ := ih y' corr' ds' hl
        refine ⟨by simp [hlen], ?_⟩
        intro i e w he hw
        cases i with
        | zero =>
          simp only [List.getElem?_cons_zero, Option.some.injEq] at he hw
          subst he hw
          exact ⟨h1, h3, h4, h5⟩
        | succ i =>
          simp only [List.getElem?_cons_succ] at he hw
          obtain ⟨g1, g2⟩ := hall i e w he hw
          exact ⟨by omega, g2⟩

/-- One step from a month index of 1..24 is possible. -/
theorem monthStep_possible (om c y corr v : Int) (h1 : 1 ≤ om + v - corr) (h2 : om + v - corr ≤ 24) (hy : 1 ≤ y)
    (hmax : 12 * y - corr + om - 1 + v < 120000) :
    ∃ d y' corr', monthStep om c y corr v = .ok (d, y', corr') ∧ 1 ≤ om + v - corr' ∧ om + v - corr' ≤ 12 ∧
      12 * y' - corr' = 12 * y - corr ∧ 1 ≤ y' := by
  unfold monthStep
  by_cases hm : om + v - corr ≤ 12
  · rw [mkDate_valid ⟨hy, by omega, h1, hm⟩]
    exact ⟨_, _, _, rfl, h1, hm, rfl, hy⟩
  · rw [mkDate_invalid (by omega)]
    rw [mkDate_valid (y := y + 1) ⟨by omega, by omega, by omega, by omega⟩]
    exact ⟨_, _, _, rfl, by omega, by omega, by omega, by omega⟩

theorem monthLoop_possible (om c K : Int) (vs : List Int) : ∀ (y corr : Int), 12 * y - corr = K →
    (∀ v ∈ vs, K + om - 1 + v < 120000) → SmallSteps vs → 1 ≤ y →
    (∀ v0, vs.head? = some v0 → 1 ≤ om + v0 - corr ∧ om + v0 - corr ≤ 24) →
    ∃ ds, monthLoop om c y corr vs = .ok ds := by
  induction vs with
  | nil => intros; exact ⟨_, rfl⟩
  | cons v vs ih =>
    intro y corr hK hmax hs hy hhead
    obtain ⟨h1, h2⟩ := hhead v rfl
    obtain ⟨d, y', corr', e, g1, g2, g3, g4⟩ := monthStep_possible om c y corr v h1 h2 hy (by
      have := hmax v (by simp); omega)
    have hs' : SmallSteps vs := by
      cases vs with
      | nil => exact trivial
      | cons w vs => exact hs.2.2
    obtain ⟨ds, hds⟩ := ih y' corr' (by omega) (fun w hw => hmax w (by simp [hw])) hs' g4 (by
      intro w hw
      cases vs with
      | nil => simp at hw
      | cons w' vs =>
        simp only [List.head?_cons, Option.some.injEq] at hw
        subst hw
        have h1 := hs.1
        have h2 := hs.2.1
        omega)
    refine ⟨d :: ds, ?_⟩
    unfold monthLoop
    rw [e]
    simp only [hds]

theorem countMonths_forward (sm sy : Int) (hs : 1 ≤ sm ∧ sm ≤ 12) (k : Nat) : ∀ (m y c : Int), 1 ≤ m ∧ m ≤ 12 →
    12 * sy + sm - (12 * y + m) = k → ∀ fuel, k + 1 ≤ fuel → countMonths true sm sy fuel m y c = some (c + k) := by
  induction k with
  | zero =>
    intro m y c hm hk fuel hf
    obtain ⟨f, rfl⟩ : ∃ f, fuel = f + 1 := ⟨fuel - 1, by omega⟩
    have : m = sm ∧ y = sy := by omega
    unfold countMonths
    rw [if_pos this]
    simp
  | succ k ih =>
    intro m y c hm hk fuel hf
    obtain ⟨f, rfl⟩ : ∃ f, fuel = f + 1 := ⟨fuel - 1, by omega⟩
    unfold countMonths
    rw [if_neg (by omega)]
    simp only [if_true]
    by_cases h13 : m + 1 = 13
    · rw [show rollMonth (m + 1) y = (1, y + 1) by simp [rollMonth, h13]]
      simp only
      rw [ih 1 (y + 1) (c + 1) (by omega) (by omega) f (by omega)]
      congr 1
      omega
    · rw [show rollMonth (m + 1) y = (m + 1, y) by simp only [rollMonth, if_neg h13]; rw [if_neg (by omega)]]
      simp only
      rw [ih (m + 1) y (c + 1) (by omega) (by omega) f (by omega)]
      congr 1
      omega

theorem countMonths_backward (sm sy : Int) (hs : 1 ≤ sm ∧ sm ≤ 12) (k : Nat) : ∀ (m y c : Int), 1 ≤ m ∧ m ≤ 12 →
    12 * y + m - (12 * sy + sm) = k → ∀ fuel, k + 1 ≤ fuel → countMonths false sm sy fuel m y c = some (c - k) := by
  induction k with
  | zero =>
    intro m y c hm hk fuel hf
    obtain ⟨f, rfl⟩ : ∃ f, fuel = f + 1 := ⟨fuel - 1, by omega⟩
    have : m = sm ∧ y = sy := by omega
    unfold countMonths
    rw [if_pos this]
    simp
  | succ k ih =>
    intro m y c hm hk fuel hf
    obtain ⟨f, rfl⟩ : ∃ f, fuel = f + 1 := ⟨fuel - 1, by omega⟩
    unfold countMonths
    rw [if_neg (by omega)]
    simp only [Bool.false_eq_true, if_false]
    by_cases h0 : m - 1 = 0
    · rw [show rollMonth (m - 1) y = (12, y - 1) by simp [rollMonth, h0]]
      simp only
      rw [ih 12 (y - 1) (c - 1) (by omega) (by omega) f (by omega)]
      congr 1
      omega
    · rw [show rollMonth (m - 1) y = (m - 1, y) by
        simp only [rollMonth, show ¬(m - 1 = 13) by omega, h0, if_false]]
      simp only
      rw [ih (m - 1) y (c - 1) (by omega) (by omega) f (by omega)]
      congr 1
      omega

theorem le_ordinal (a b : Date) (ha : 1 ≤ a.month ∧ a.month ≤ 12) (hb : 1 ≤ b.month ∧ b.month ≤ 12) :
    (a.le b = true → ordinal a ≤ ordinal b) ∧ (a.le b = false → ordinal b ≤ ordinal a) := by
  unfold Date.le Date.parts ordinal
  simp only [leParts]
  constructor
  · intro h
    simp only [Bool.or_eq_true, Bool.and_eq_true, decide_eq_true_eq] at h
    omega
  · intro h
    simp only [Bool.or_eq_false_iff, Bool.and_eq_false_iff, decide_eq_false_iff_not] at h
    omega

theorem differenceInMonths_eq (a b : Date) (ha : 1 ≤ a.month ∧ a.month ≤ 12) (hb : 1 ≤ b.month ∧ b.month ≤ 12)
    (fuel : Nat) (hf : (ordinal b - ordinal a).natAbs + 1 ≤ fuel) :
    differenceInMonths fuel a b = some (ordinal b - ordinal a) := by
  obtain ⟨h1, h2⟩ := le_ordinal a b ha hb
  unfold differenceInMonths
  unfold ordinal at *
  cases h : a.le b with
  | true =>
    have := h1 h
    rw [countMonths_forward b.month b.year hb (12 * b.year + b.month - (12 * a.year + a.month)).toNat a.month a.year 0 ha
      (by omega) fuel (by omega)]
    congr 1; omega
  | false =>
    have := h2 h
    rw [countMonths_backward b.month b.year hb (12 * a.year + a.month - (12 * b.year + b.month)).toNat a.month a.year 0 ha
      (by omega) fuel (by omega)]
    congr 1; omega

/-! ## Unique and product -/

theorem mem_insertUnique (x y : Int) (l : List Int) : y ∈ insertUnique x l ↔ y = x ∨ y ∈ l := by
  induction l with
  | nil => simp [insertUnique]
  | cons a l ih =>
    unfold insertUnique
    split
    · simp
    · split
      · next h => subst h; simp
      · simp only [List.mem_cons, ih]
        constructor
        · rintro (h | h | h) <;> simp [h]
        · rintro (h | h | h) <;> simp [h]

theorem mem_unique (y : Int) (l : List Int) : y ∈ unique l ↔ y ∈ l := by
  unfold unique
  induction l with
  | nil => simp
  | cons a l ih => rw [List.foldr_cons, mem_insertUnique, ih, List.mem_cons]

theorem insertUnique_sorted (x : Int) (l : List Int) (h : l.Pairwise (· < ·)) : (insertUnique x l).Pairwise (· < ·) := by
  induction l with
  | nil => simp [insertUnique]
  | cons a l ih =>
    rw [List.pairwise_cons] at h
    unfold insertUnique
    split
    · next hx =>
      rw [List.pairwise_cons]
      refine ⟨?_, List.pairwise_cons.2 h⟩
      intro b hb
      rcases List.mem_cons.1 hb with rfl | hb
      · exact hx
      · have := h.1 b hb; omega
    · split
      · exact List.pairwise_cons.2 h
      · next h1 h2 =>
        rw [List.pairwise_cons]
        refine ⟨?_, ih h.2⟩
        intro b hb
        rcases (mem_insertUnique x b l).1 hb with rfl | hb
        · omega
        · exact h.1 b hb

theorem unique_sorted (l : List Int) : (unique l).Pairwise (· < ·) := by
  unfold unique
  induction l with
  | nil => exact List.Pairwise.nil
  | cons a l ih => exact insertUnique_sorted a _ ih

theorem unique_nodup (l : List Int) : (unique l).Nodup :=
  (unique_sorted l).imp (fun h => by omega)

theorem mem_product {α : Type _} (ls : List (List α)) (c : List α) : c ∈ product ls ↔
    c.length = ls.length ∧ ∀ (i : Nat) l, ls[i]? = some l → ∃ a, c[i]? = some a ∧ a ∈ l := by
  induction ls generalizing c with
  | nil =>
    simp only [product, List.mem_singleton, List.length_nil, List.getElem?_nil]
    constructor
    · rintro rfl; exact ⟨rfl, by intro i l h; simp at h⟩
    · rintro ⟨h, _⟩; exact List.eq_nil_of_length_eq_zero h
  | cons l ls ih =>
    simp only [product, List.mem_flatMap, List.mem_map]
    constructor
    · rintro ⟨a, ha, r, hr, rfl⟩
      obtain ⟨h1, h2⟩ := (ih r).1 hr
      refine ⟨by simp [h1], ?_⟩
      intro i m hm
      cases i with
      | zero => simp only [List.getElem?_cons_zero, Option.some.injEq] at hm; subst hm; exact ⟨a, rfl, ha⟩
      | succ i => exact h2 i m (by simpa using hm)
    · rintro ⟨h1, h2⟩
      cases c with
      | nil => simp at h1
      | cons a r =>
        obtain ⟨b, hb, hbl⟩ := h2 0 l rfl
        simp only [List.getElem?_cons_zero, Option.some.injEq] at hb
        subst hb
        refine ⟨a, hbl, r, (ih r).2 ⟨by simpa using h1, ?_⟩, rfl⟩
        intro i m hm
        exact h2 (i + 1) m (by simpa using hm)

theorem product_nodup {α : Type _} (ls : List (List α)) (h : ∀ l ∈ ls, l.Nodup) : (product ls).Nodup := by
  induction ls with
  | nil => simp [product]
  | cons l ls ih =>
    have ih := ih (fun m hm => h m (by simp [hm]))
    unfold product
    rw [List.Nodup, List.pairwise_flatMap]
    refine ⟨?_, ?_⟩
    · intro a _
      rw [List.pairwise_map]
      refine ih.imp ?_
      intro x y hxy he
      exact hxy (List.cons.inj he).2
    · refine (h l (by simp)).imp ?_
      intro a b hab x hx y hy he
      obtain ⟨r, _, rfl⟩ := List.mem_map.1 hx
      obtain ⟨s, _, rfl⟩ := List.mem_map.1 hy
      exact hab (List.cons.inj he).1

/-! ## Groups -/

theorem candidates_nodup (rows : List (List Int)) (grouping : List Nat) : (groupCandidates rows grouping).Nodup := by
  apply product_nodup
  intro l hl
  obtain ⟨idx, _, rfl⟩ := List.mem_map.1 hl
  split
  · rw [List.Nodup, List.pairwise_map]
    refine (unique_nodup _).imp ?_
    intro a b hab he
    exact hab (Option.some.inj he)
  · simp

theorem mem_candidates (rows : List (List Int)) (grouping : List Nat) (c : List (Option Int)) :
    c ∈ groupCandidates rows grouping ↔ c.length = 6 ∧ ∀ k, k < 6 → ∃ a, c[k]? = some a ∧
      (if k ∈ grouping then ∃ r ∈ rows, a = some (r.getD k 0) else a = none) := by
  unfold groupCandidates
  rw [mem_product]
  simp only [List.length_map, List.length_range, List.getElem?_map]
  constructor
  · rintro ⟨h1, h2⟩
    refine ⟨h1, ?_⟩
    intro k hk
    obtain ⟨a, ha, hal⟩ := h2 k _ (by rw [List.getElem?_range hk]; rfl)
    refine ⟨a, ha, ?_⟩
    simp only at hal
    split at hal
    · next hin =>
      rw [if_pos hin]
      obtain ⟨v, hv, rfl⟩ := List.mem_map.1 hal
      rw [mem_unique] at hv
      obtain ⟨r, hr, rfl⟩ := List.mem_map.1 hv
      exact ⟨r, hr, rfl⟩
    · next hin =>
      rw [if_neg hin]
      exact List.mem_singleton.1 hal
  · rintro ⟨h1, h2⟩
    refine ⟨h1, ?_⟩
    intro k l hl
    rcases Nat.lt_or_ge k 6 with hk | hk
    · rw [List.getElem?_range hk] at hl
      simp only [Option.map_some, Option.some.injEq] at hl
      obtain ⟨a, ha, hal⟩ := h2 k hk
      refine ⟨a, ha, ?_⟩
      rw [← hl]
      split
      · next hin =>
        rw [if_pos hin] at hal
        obtain ⟨r, hr, rfl⟩ := hal
        rw [List.mem_map]
        exact ⟨_, (mem_unique _ _).2 (List.mem_map.2 ⟨r, hr, rfl⟩), rfl⟩
      · next hin =>
        rw [if_neg hin] at hal
        simp [hal]
    · rw [List.getElem?_eq_none (by simpa using hk)] at hl
      simp at hl

theorem groupMembers_get (rows : List (List Int)) (grouping : List Nat) (c : List (Option Int)) (i : Nat) (r : List Int)
    (hr : rows[i]? = some r) : (groupMembers rows grouping c)[i]? = some true ↔
      ∀ k ∈ grouping, c.getD k none = some (r.getD k 0) := by
  unfold groupMembers
  rw [List.getElem?_map, hr]
  simp only [Option.map_some, Option.some.injEq, List.all_eq_true, decide_eq_true_eq]

/-- The candidate of a row. -/
def rowCandidate (grouping : List Nat) (r : List Int) : List (Option Int) :=
  (List.range 6).map fun k => if k ∈ grouping then some (r.getD k 0) else none

theorem rowCandidate_mem (rows : List (List Int)) (grouping : List Nat) (r : List Int) (hr : r ∈ rows) :
    rowCandidate grouping r ∈ groupCandidates rows grouping := by
  rw [mem_candidates]
  refine ⟨by simp [rowCandidate], ?_⟩
  intro k hk
  refine ⟨_, by simp only [rowCandidate, List.getElem?_map]; rw [List.getElem?_range hk]; rfl, ?_⟩
  split
  · next h => exact ⟨r, hr, if_pos h⟩
  · next h => exact if_neg h

/-- A candidate agreeing with a row on the grouping parts is the row's candidate. -/
theorem candidate_eq (rows : List (List Int)) (grouping : List Nat) (c : List (Option Int))
    (hc : c ∈ groupCandidates rows grouping) (r : List Int) (h : ∀ k ∈ grouping, c.getD k none = some (r.getD k 0)) :
    c = rowCandidate grouping r := by
  rw [mem_candidates] at hc
  obtain ⟨h1, h2⟩ := hc
  apply List.ext_getElem?
  intro k
  rcases Nat.lt_or_ge k 6 with hk | hk
  · obtain ⟨a, ha, hal⟩ := h2 k hk
    rw [ha]
    simp only [rowCandidate, List.getElem?_map]
    rw [List.getElem?_range hk]
    simp only [Option.map_some, Option.some.injEq]
    by_cases hin : k ∈ grouping
    · rw [if_pos hin]
      have := h k hin
      rw [List.getD_eq_getElem?_getD, ha] at this
      exact this
    · rw [if_neg hin] at hal ⊢
      exact hal
  · rw [List.getElem?_eq_none (by omega), List.getElem?_eq_none (by simp [rowCandidate]; omega)]

theorem groups_mem (dates : List Date) (grouping : List Nat) (g : List (Option Int) × List Bool) :
    g ∈ groups dates grouping ↔ g.1 ∈ groupCandidates (dates.map Date.parts) grouping ∧
      g.2 = groupMembers (dates.map Date.parts) grouping g.1 ∧ true ∈ g.2 := by
  unfold groups
  simp only [List.mem_filter, List.mem_map, List.any_eq_true, id]
  constructor
  · rintro ⟨⟨c, hc, rfl⟩, x, hx, rfl⟩
    exact ⟨hc, rfl, hx⟩
  · rintro ⟨h1, h2, h3⟩
    exact ⟨⟨g.1, h1, by rw [← h2]⟩, true, h3, rfl⟩

theorem groups_nodup (dates : List Date) (grouping : List Nat) : ((groups dates grouping).map (·.1)).Nodup := by
  unfold groups
  have : (((groupCandidates (dates.map Date.parts) grouping).map fun c =>
      (c, groupMembers (dates.map Date.parts) grouping c)).map (·.1)).Nodup := by
    rw [List.map_map]
    show (List.map (fun c => c) _).Nodup
    rw [List.map_id']
    exact candidates_nodup _ _
  exact this.sublist (List.Sublist.map _ (List.filter_sublist))

end Ocgis.Temporal
