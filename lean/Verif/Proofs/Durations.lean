import Verif.Spec.Series
/-!
# Lemmas
-/
namespace Ocgis.Props
open Ocgis.Series Ocgis.Spec

/-- Neighbours in a strictly increasing list. -/
theorem mem_zip_tail (l : List Nat) (hl : l.Pairwise (· < ·)) (a b : Nat) :
    (a, b) ∈ l.zip l.tail ↔ a ∈ l ∧ b ∈ l ∧ a < b ∧ ∀ c ∈ l, c ≤ a ∨ b ≤ c := by
  induction l with
  | nil => simp
  | cons x l ih =>
    cases l with
    | nil => simp; omega
    | cons y l =>
      rw [List.pairwise_cons] at hl
      have hl2 := hl.2
      rw [List.pairwise_cons] at hl2
      have ih := ih hl.2
      simp only [List.tail_cons] at ih
      simp only [List.tail_cons, List.zip_cons_cons, List.mem_cons, Prod.mk.injEq] at ih ⊢
      have hxy := hl.1 y (by simp)
      constructor
      · rintro (⟨rfl, rfl⟩ | h)
        · refine ⟨.inl rfl, .inr (.inl rfl), hxy, ?_⟩
          rintro c (rfl | rfl | hc)
          · left; omega
          · right; omega
          · right; have := hl2.1 c hc; omega
        · obtain ⟨h1, h2, h3, h4⟩ := ih.1 h
          refine ⟨.inr h1, .inr h2, h3, ?_⟩
          rintro c (rfl | hc)
          · left
            have := hl.1 a (by simpa using h1)
            omega
          · exact h4 c hc
      · rintro ⟨h1, h2, h3, h4⟩
        by_cases hax : a = x
        · left
          subst hax
          refine ⟨rfl, ?_⟩
          have hb : b = y ∨ b ∈ l := by
            rcases h2 with rfl | h2
            · omega
            · exact h2
          rcases hb with rfl | hb
          · rfl
          · have := hl2.1 b hb
            rcases h4 y (by simp) with h | h <;> omega
        · right
          have ha : a = y ∨ a ∈ l := by
            rcases h1 with rfl | h1
            · exact absurd rfl hax
            · exact h1
          have hb : b = y ∨ b ∈ l := by
            rcases h2 with rfl | h2
            · have := hl.1 a (by simpa using ha); omega
            · exact h2
          exact ih.2 ⟨ha, hb, h3, fun c hc => h4 c (.inr hc)⟩

/-- A value changes from position `i` to the next. -/
theorem mem_splitIdx (vec : List Bool) (k : Nat) : k ∈ splitIdx vec ↔ 0 < k ∧ k < vec.length ∧ vec.getD (k - 1) false ≠ vec.getD k false := by
  simp only [splitIdx, List.mem_map, List.mem_filter, List.mem_range, Bool.and_eq_true, decide_eq_true_eq, bne_iff_ne, ne_eq]
  constructor
  · rintro ⟨i, ⟨h1, h2, h3⟩, rfl⟩
    exact ⟨by omega, h2, by simpa using h3⟩
  · rintro ⟨h1, h2, h3⟩
    refine ⟨k - 1, ⟨by omega, by omega, ?_⟩, by omega⟩
    rw [show k - 1 + 1 = k by omega]; exact h3

/-- The boundaries of the stretches of equal values. -/
theorem boundaries_sorted (vec : List Bool) (hn : 0 < vec.length) : (0 :: splitIdx vec ++ [vec.length]).Pairwise (· < ·) := by
  rw [List.pairwise_append, List.pairwise_cons]
  refine ⟨⟨fun k hk => ((mem_splitIdx vec k).1 hk).1, ?_⟩, by simp, ?_⟩
  · rw [splitIdx, List.pairwise_map]
    apply List.Pairwise.filter
    exact List.pairwise_lt_range.imp (by intro a b h; omega)
  · intro a ha b hb
    simp only [List.mem_singleton] at hb
    subst hb
    rcases List.mem_cons.1 ha with rfl | ha
    · exact hn
    · exact ((mem_splitIdx vec a).1 ha).2.1

/-- Between two neighbouring boundaries the value is the same. -/
theorem constant_between (vec : List Bool) (a b : Nat) (hb : b ≤ vec.length) (hno : ∀ c ∈ 0 :: splitIdx vec ++ [vec.length], c ≤ a ∨ b ≤ c) :
    ∀ i, a + i < b → vec.getD (a + i) false = vec.getD a false := by
  intro i
  induction i with
  | zero => intro _; rfl
  | succ i ih =>
    intro h
    rw [← ih (by omega)]
    apply Classical.byContradiction
    intro hne
    have hm : a + (i + 1) ∈ splitIdx vec := by
      rw [mem_splitIdx]
      refine ⟨by omega, by omega, ?_⟩
      rw [show a + (i + 1) - 1 = a + i by omega]
      exact fun he => hne he.symm
    rcases hno (a + (i + 1)) (by simp [hm]) with h' | h' <;> omega

theorem getElem?_getD (vec : List Bool) (i : Nat) (h : i < vec.length) : vec[i]? = some (vec.getD i false) := by
  rw [List.getD_eq_getElem?_getD, List.getElem?_eq_getElem h]; rfl

/-- The pieces with true values are the maximal runs. -/
theorem run_iff (vec : List Bool) (hn : 0 < vec.length) (a b : Nat) :
    ((a, b) ∈ (0 :: splitIdx vec).zip (splitIdx vec ++ [vec.length]) ∧ ((vec.drop a).take (b - a)).all id = true) ↔
    a < b ∧ MaximalRun vec a (b - a) := by
  have hz : (0 :: splitIdx vec).zip (splitIdx vec ++ [vec.length]) =
      (0 :: splitIdx vec ++ [vec.length]).zip (0 :: splitIdx vec ++ [vec.length]).tail := by
    simp only [List.cons_append, List.tail_cons]
    generalize splitIdx vec = l
    have : ∀ (x : Nat) (l : List Nat) (y : Nat), (x :: l).zip (l ++ [y]) = (x :: (l ++ [y])).zip (l ++ [y]) := by
      intro x l
      induction l generalizing x with
      | nil => intro y; rfl
      | cons z l ih => intro y; simp only [List.cons_append, List.zip_cons_cons]; rw [ih z y]
    exact this 0 l vec.length
  rw [hz, mem_zip_tail _ (boundaries_sorted vec hn)]
  have hle : ∀ c ∈ 0 :: splitIdx vec ++ [vec.length], c ≤ vec.length := by
    intro c hc
    simp only [List.cons_append, List.mem_cons, List.mem_append, List.not_mem_nil, or_false] at hc
    rcases hc with rfl | hc | rfl
    · omega
    · have := ((mem_splitIdx vec c).1 hc).2.1; omega
    · omega
  constructor
  · rintro ⟨⟨h1, h2, h3, h4⟩, h5⟩
    have hb := hle b h2
    have hv : ∀ i, a ≤ i → i < b → vec[i]? = some true := by
      intro i hi1 hi2
      have hm : true ∈ [vec.getD i false] ∨ vec.getD i false = false := by cases vec.getD i false <;> simp
      rw [List.all_eq_true] at h5
      have hmem : vec.getD i false ∈ (vec.drop a).take (b - a) := by
        rw [List.mem_iff_getElem?]
        refine ⟨i - a, ?_⟩
        rw [List.getElem?_take_of_lt (by omega), List.getElem?_drop, show a + (i - a) = i by omega, getElem?_getD vec i (by omega)]
      have := h5 _ hmem
      rw [getElem?_getD vec i (by omega)]
      simpa using this
    refine ⟨h3, by omega, ?_, ?_, ?_⟩
    · intro i hi1 hi2
      exact hv i hi1 (by omega)
    · by_cases ha : a = 0
      · exact .inl ha
      · right
        have hm : a ∈ splitIdx vec := by
          simp only [List.cons_append, List.mem_cons, List.mem_append, List.not_mem_nil, or_false] at h1
          rcases h1 with rfl | h1 | rfl
          · exact absurd rfl ha
          · exact h1
          · omega
        obtain ⟨_, h7, h8⟩ := (mem_splitIdx vec a).1 hm
        have := hv a (by omega) h3
        rw [getElem?_getD vec a (by omega)] at this
        rw [getElem?_getD vec (a - 1) (by omega)]
        simp only [Option.some.injEq] at this ⊢
        rw [this] at h8
        simpa using h8
    · rw [show a + (b - a) = b by omega]
      by_cases hbn : b = vec.length
      · exact .inl hbn
      · right
        have hm : b ∈ splitIdx vec := by
          simp only [List.cons_append, List.mem_cons, List.mem_append, List.not_mem_nil, or_false] at h2
          rcases h2 with rfl | h2 | rfl
          · omega
          · exact h2
          · exact absurd rfl hbn
        obtain ⟨_, h7, h8⟩ := (mem_splitIdx vec b).1 hm
        have := hv (b - 1) (by omega) (by omega)
        rw [getElem?_getD vec (b - 1) (by omega)] at this
        rw [getElem?_getD vec b h7]
        simp only [Option.some.injEq] at this ⊢
        rw [this] at h8
        cases hb : vec.getD b false with
        | false => rfl
        | true => rw [hb] at h8; exact absurd rfl h8
  · rintro ⟨hab, hr⟩
    have hlast := hr.holds (b - 1) (by omega) (by omega)
    have hbn : b ≤ vec.length := by
      have := (List.getElem?_eq_some_iff.1 hlast).1
      omega
    have hv : ∀ i, a ≤ i → i < b → vec.getD i false = true := by
      intro i h1 h2
      have := hr.holds i h1 (by omega)
      rw [getElem?_getD vec i (by omega)] at this
      simpa using this
    refine ⟨⟨?_, ?_, hab, ?_⟩, ?_⟩
    · rcases hr.before with h | h
      · simp [h]
      · by_cases ha0 : a = 0
        · simp [ha0]
        · have : a ∈ splitIdx vec := by
            rw [mem_splitIdx]
            refine ⟨by omega, by omega, ?_⟩
            rw [getElem?_getD vec _ (by omega)] at h
            simp only [Option.some.injEq] at h
            rw [h, hv a (by omega) hab]
            decide
          simp [this]
    · rcases hr.after with h | h
      · rw [show a + (b - a) = b by omega] at h
        simp [h]
      · rw [show a + (b - a) = b by omega] at h
        have hlt := (List.getElem?_eq_some_iff.1 h).1
        have : b ∈ splitIdx vec := by
          rw [mem_splitIdx]
          refine ⟨by omega, hlt, ?_⟩
          rw [getElem?_getD vec _ hlt] at h
          simp only [Option.some.injEq] at h
          rw [h, hv (b - 1) (by omega) (by omega)]
          decide
        simp [this]
    · intro c hc
      apply Classical.byContradiction
      intro hne
      have hc1 : a < c := by omega
      have hc2 : c < b := by omega
      have hm : c ∈ splitIdx vec := by
        simp only [List.cons_append, List.mem_cons, List.mem_append, List.not_mem_nil, or_false] at hc
        rcases hc with rfl | hc | rfl
        · omega
        · exact hc
        · omega
      obtain ⟨_, _, h8⟩ := (mem_splitIdx vec c).1 hm
      rw [hv (c - 1) (by omega) (by omega), hv c (by omega) hc2] at h8
      exact h8 rfl
    · rw [List.all_eq_true]
      intro x hx
      obtain ⟨j, hj⟩ := List.getElem?_of_mem hx
      have hjlt := (List.getElem?_eq_some_iff.1 hj).1
      simp only [List.length_take, List.length_drop] at hjlt
      rw [List.getElem?_take_of_lt (by omega), List.getElem?_drop, getElem?_getD vec _ (by omega), hv (a + j) (by omega) (by omega)] at hj
      simpa using hj.symm

/-- The pieces kept give the lengths of the maximal runs. -/
theorem pieces_runs (vec : List Bool) (hn : 0 < vec.length) :
    RunLengths vec (((splitAtIdx vec (splitIdx vec)).filter fun a => a.all id).map fun a => a.countP id) := by
  refine ⟨(((0 :: splitIdx vec).zip (splitIdx vec ++ [vec.length])).filter fun ab => ((vec.drop ab.1).take (ab.2 - ab.1)).all id).map
    fun ab => (ab.1, ab.2 - ab.1), ?_, ?_, ?_⟩
  · intro s len
    simp only [List.mem_map, List.mem_filter, Prod.mk.injEq]
    constructor
    · rintro ⟨⟨a, b⟩, ⟨h1, h2⟩, rfl, rfl⟩
      exact ((run_iff vec hn a b).1 ⟨h1, h2⟩).2
    · intro hr
      have hpos := hr.pos
      refine ⟨(s, s + len), (run_iff vec hn s (s + len)).2 ⟨by omega, by rw [show s + len - s = len by omega]; exact hr⟩, rfl, by omega⟩
  · rw [List.pairwise_map]
    apply List.Pairwise.filter
    have hs := boundaries_sorted vec hn
    rw [List.pairwise_append] at hs
    have hs0 := hs.1
    rw [List.pairwise_iff_getElem] at hs0 ⊢
    intro i j hi hj hij
    simp only [List.getElem_zip]
    exact hs0 i j _ _ hij
  · simp only [splitAtIdx, List.filter_map, List.map_map]
    apply List.map_congr_left
    intro ab hab
    rw [List.mem_filter] at hab
    obtain ⟨h1, h2⟩ := hab
    obtain ⟨a, b⟩ := ab
    simp only [Function.comp]
    obtain ⟨hlt, hr⟩ := (run_iff vec hn a b).1 ⟨h1, h2⟩
    have hall : ((vec.drop a).take (b - a)).countP id = ((vec.drop a).take (b - a)).length := by
      rw [List.countP_eq_length]
      exact List.all_eq_true.1 h2
    rw [hall]
    have := (List.getElem?_eq_some_iff.1 (hr.holds (b - 1) (by omega) (by omega))).1
    simp only [List.length_take, List.length_drop]
    omega

theorem anyAdjacent_iff (l : List Nat) (hl : l.Pairwise (· < ·)) : anyAdjacent l = true ↔ ∃ a, a ∈ l ∧ a + 1 ∈ l := by
  induction l with
  | nil => simp [anyAdjacent]
  | cons x l ih =>
    cases l with
    | nil => simp [anyAdjacent]
    | cons y l =>
      rw [List.pairwise_cons] at hl
      have hl2 := hl.2
      rw [List.pairwise_cons] at hl2
      simp only [anyAdjacent, Bool.or_eq_true, beq_iff_eq, ih hl.2]
      constructor
      · rintro (h | ⟨a, h1, h2⟩)
        · exact ⟨x, by simp, by simp [h]⟩
        · exact ⟨a, List.mem_cons_of_mem _ h1, List.mem_cons_of_mem _ h2⟩
      · rintro ⟨a, h1, h2⟩
        rcases List.mem_cons.1 h1 with rfl | h1
        · left
          rcases List.mem_cons.1 h2 with h2 | h2
          · omega
          · rcases List.mem_cons.1 h2 with h2 | h2
            · exact h2.symm
            · have := hl2.1 _ h2
              have := hl.1 y (by simp)
              omega
        · right
          refine ⟨a, h1, ?_⟩
          rcases List.mem_cons.1 h2 with h2 | h2
          · have := hl.1 a h1; omega
          · exact h2

theorem mem_trueIdx (vec : List Bool) (i : Nat) : i ∈ trueIdx vec ↔ vec[i]? = some true := by
  simp only [trueIdx, List.mem_filter, List.mem_range]
  constructor
  · rintro ⟨h1, h2⟩
    rw [getElem?_getD vec i h1, h2]
  · intro h
    have hlt := (List.getElem?_eq_some_iff.1 h).1
    rw [getElem?_getD vec i hlt] at h
    exact ⟨hlt, by simpa using h⟩

theorem trueIdx_sorted (vec : List Bool) : (trueIdx vec).Pairwise (· < ·) := List.Pairwise.filter _ List.pairwise_lt_range

theorem frequencies_mem (l : List Nat) : (∀ d c, (d, c) ∈ frequencies l ↔ d ∈ l ∧ c = l.count d) ∧ ((frequencies l).map (·.1)).Nodup := by
  induction l with
  | nil => simp [frequencies]
  | cons x l ih =>
    obtain ⟨h1, h2⟩ := ih
    rw [frequencies]
    by_cases hx : x ∈ l
    · rw [if_pos hx]
      have hmap : ((frequencies l).map fun p => if p.1 = x then (x, p.2 + 1) else p).map (·.1) = (frequencies l).map (·.1) := by
        rw [List.map_map]
        apply List.map_congr_left
        intro p _
        simp only [Function.comp]
        split
        · rename_i h; exact h.symm
        · rfl
      refine ⟨?_, by rw [hmap]; exact h2⟩
      intro d c
      simp only [List.mem_map]
      constructor
      · rintro ⟨⟨d', c'⟩, hm, he⟩
        obtain ⟨g1, g2⟩ := (h1 d' c').1 hm
        by_cases hd : d' = x
        · simp only [hd, if_true, Prod.mk.injEq] at he
          obtain ⟨rfl, rfl⟩ := he
          refine ⟨by simp, ?_⟩
          rw [List.count_cons_self, g2, hd]
        · simp only [hd, if_false, Prod.mk.injEq] at he
          obtain ⟨rfl, rfl⟩ := he
          refine ⟨List.mem_cons_of_mem _ g1, ?_⟩
          rw [List.count_cons_of_ne (Ne.symm hd)]
          exact g2
      · rintro ⟨hm, rfl⟩
        by_cases hd : d = x
        · subst hd
          refine ⟨(d, l.count d), (h1 d _).2 ⟨hx, rfl⟩, ?_⟩
          simp
        · refine ⟨(d, l.count d), (h1 d _).2 ⟨?_, rfl⟩, ?_⟩
          · rcases List.mem_cons.1 hm with h | h
            · exact absurd h hd
            · exact h
          · simp [hd, List.count_cons_of_ne (Ne.symm hd)]
    · rw [if_neg hx]
      refine ⟨?_, ?_⟩
      · intro d c
        simp only [List.mem_cons, Prod.mk.injEq]
        constructor
        · rintro (⟨rfl, rfl⟩ | h)
          · refine ⟨.inl rfl, ?_⟩
            rw [List.count_cons_self, List.count_eq_zero_of_not_mem hx]
          · obtain ⟨g1, g2⟩ := (h1 d c).1 h
            refine ⟨.inr g1, ?_⟩
            rw [List.count_cons_of_ne (by rintro rfl; exact hx g1)]
            exact g2
        · rintro ⟨rfl | hm, rfl⟩
          · left
            refine ⟨rfl, ?_⟩
            rw [List.count_cons_self, List.count_eq_zero_of_not_mem hx]
          · right
            rw [List.count_cons_of_ne (by rintro rfl; exact hx hm)]
            exact (h1 d _).2 ⟨hm, rfl⟩
      · rw [List.map_cons, List.nodup_cons]
        refine ⟨?_, h2⟩
        rw [List.mem_map]
        rintro ⟨⟨d, c⟩, hm, rfl⟩
        exact hx ((h1 d c).1 hm).1

theorem cumsum_getD (l : List Rat) : ∀ (acc : Rat) (i : Nat), i < l.length → (cumsum acc l).getD i 0 = acc + (l.take (i + 1)).sum := by
  induction l with
  | nil => intro _ i h; simp at h
  | cons x l ih =>
    intro acc i h
    cases i with
    | zero => simp only [cumsum, List.getD_cons_zero, List.take_succ_cons, List.take_zero, List.sum_cons, List.sum_nil]; grind
    | succ i =>
      simp only [cumsum, List.getD_cons_succ, List.take_succ_cons, List.sum_cons]
      rw [ih _ i (by simpa using h)]
      grind

theorem cumsum_length (l : List Rat) : ∀ acc, (cumsum acc l).length = l.length := by
  induction l with
  | nil => intro _; rfl
  | cons x l ih => intro acc; simp [cumsum, ih]

theorem take_sum_split (x : List Rat) (c w : Nat) : (x.take (c + w)).sum = (x.take c).sum + degreeDays x c (c + w) := by
  rw [degreeDays, stretch, List.take_add, List.sum_append, show c + w - c = w by omega]

/-- The difference of the cumulative sums. -/
theorem cumsum_diff (x : List Rat) (c w : Nat) (h : c + w ≤ x.length) :
    (cumsum 0 (0 :: x)).getD (c + w) 0 - (cumsum 0 (0 :: x)).getD c 0 = degreeDays x c (c + w) := by
  rw [cumsum_getD _ _ _ (by simp; omega), cumsum_getD _ _ _ (by simp; omega), List.take_succ_cons, List.take_succ_cons,
    List.sum_cons, List.sum_cons, take_sum_split]
  grind

theorem degreeDays_self (x : List Rat) (c : Nat) : degreeDays x c c = 0 := by simp [degreeDays, stretch]

theorem absR_ge (q t : Rat) : (absR q ≥ t) ↔ (t ≤ q ∨ t ≤ -q) ∨ (t ≤ absR q ∧ q < t ∧ -q < t) := by
  unfold absR
  split <;> grind

theorem absR_lt (q t : Rat) : ¬ absR q ≥ t ↔ q < t ∧ -q < t := by
  unfold absR
  split <;> grind

/-- The first place where the threshold is reached. -/
theorem firstReached_some (x : List Rat) (t : Rat) (ht : 0 < t) (c w : Nat) (hc : c ≤ x.length)
    (h : firstReached (cumsum 0 (0 :: x)) t c = some w) :
    ∃ thaw, Reaches x t c (c + w) thaw ∧ signR ((cumsum 0 (0 :: x)).getD (c + w) 0 - (cumsum 0 (0 :: x)).getD c 0) = if thaw then 1 else -1 := by
  rw [firstReached, List.find?_range_eq_some] at h
  obtain ⟨h1, h2, h3⟩ := h
  rw [cumsum_length, List.length_cons, List.mem_range] at h2
  rw [decide_eq_true_eq, cumsum_diff x c w (by omega)] at h1
  have hw : 0 < w := by
    rcases Nat.eq_zero_or_pos w with rfl | h
    · rw [show c + 0 = c by omega, degreeDays_self] at h1
      have : absR 0 = 0 := by decide +kernel
      rw [this] at h1
      grind
    · exact h
  have hnb : ∀ q, c ≤ q → q < c + w → degreeDays x c q < t ∧ -degreeDays x c q < t := by
    intro q h4 h5
    have := h3 (q - c) (by omega)
    rw [cumsum_diff x c (q - c) (by omega), show c + (q - c) = q by omega] at this
    rw [← absR_lt]
    simpa using this
  rw [cumsum_diff x c w (by omega)]
  by_cases hneg : degreeDays x c (c + w) < 0
  · refine ⟨false, ⟨by omega, by omega, ?_, hnb⟩, ?_⟩
    · rw [absR, if_pos hneg] at h1
      simpa using h1
    · simp [signR, hneg]
  · refine ⟨true, ⟨by omega, by omega, ?_, hnb⟩, ?_⟩
    · rw [absR, if_neg hneg] at h1
      simpa using h1
    · have : degreeDays x c (c + w) ≠ 0 := by
        rw [absR, if_neg hneg] at h1
        grind
      simp [signR, hneg, this]

theorem firstReached_none (x : List Rat) (t : Rat) (c p : Nat) (thaw : Bool) (hr : Reaches x t c p thaw) :
    firstReached (cumsum 0 (0 :: x)) t c = some (p - c) := by
  have h1 := hr.later
  have h2 := hr.inside
  rw [firstReached, List.find?_range_eq_some, cumsum_length, List.length_cons, List.mem_range, decide_eq_true_eq,
    cumsum_diff x c (p - c) (by omega), show c + (p - c) = p by omega]
  refine ⟨?_, by omega, ?_⟩
  · have := hr.reached
    unfold absR
    cases thaw
    · simp only [Bool.false_eq_true, if_false] at this
      split <;> grind
    · simp only [if_true] at this
      split <;> grind
  · intro j hj
    rw [cumsum_diff x c j (by omega)]
    have := (absR_lt (degreeDays x c (c + j)) t).2 (hr.notBefore (c + j) (by omega) (by omega))
    simpa using this

/-- The state of the scan after the starts `done`; the events are listed last first. -/
structure Scan (x : List Rat) (t : Rat) (done : List Nat) (evs : List Int) : Prop where
  real : ∀ e ∈ evs, ∃ c ∈ done, ∃ p thaw, Reaches x t c p thaw ∧ e = eventAt p thaw
  order : evs.Pairwise fun e f => f.natAbs < e.natAbs
  alternate : ∀ (k : Nat) e f, evs[k]? = some e → evs[k + 1]? = some f → e.sign ≠ f.sign ∧ ∃ c ∈ done, f.natAbs ≤ c ∧ ∃ p thaw, Reaches x t c p thaw ∧ e = eventAt p thaw
  complete : ∀ c ∈ done, ∀ p thaw, Reaches x t c p thaw → ∃ e ∈ evs,
    (c < e.natAbs ∧ ∃ c' ∈ done, c' ≤ c ∧ ∃ thaw', Reaches x t c' e.natAbs thaw') ∨
    (e.natAbs ≤ c ∧ (0 < e ↔ thaw = true) ∧ ∀ f ∈ evs, f.natAbs ≤ c → f.natAbs ≤ e.natAbs)

theorem eventAt_natAbs (p : Nat) (b : Bool) : (eventAt p b).natAbs = p := by
  unfold eventAt; split <;> simp

theorem eventAt_pos (p : Nat) (b : Bool) (hp : 0 < p) : (0 < eventAt p b) ↔ b = true := by
  unfold eventAt; cases b <;> simp <;> omega

theorem eventAt_sign (p : Nat) (b : Bool) (hp : 0 < p) : (eventAt p b).sign = if b then 1 else -1 := by
  unfold eventAt; cases b
  · simp only [Bool.false_eq_true, if_false, Int.sign_neg]
    rw [Int.sign_eq_one_of_pos (by omega)]
  · simp only [if_true]
    exact Int.sign_eq_one_of_pos (by omega)

theorem headD_append_zero (evs : List Int) : (evs ++ [0]).headD 0 = evs.headD 0 := by cases evs <;> rfl

/-- One more start. -/
theorem scan_step (x : List Rat) (t : Rat) (ht : 0 < t) (done : List Nat) (evs : List Int) (c : Nat) (hc : c ≤ x.length)
    (hgt : ∀ d ∈ done, d < c) (h : Scan x t done evs) :
    ∃ evs', freezeStep (cumsum 0 (0 :: x)) t (evs ++ [0]) c = evs' ++ [0] ∧ Scan x t (done ++ [c]) evs' := by
  have hmono : ∀ d ∈ done, d ∈ done ++ [c] := fun d hd => List.mem_append_left _ hd
  have hkeep : (∀ p thaw, Reaches x t c p thaw → ∃ e ∈ evs,
      (c < e.natAbs ∧ ∃ c' ∈ done ++ [c], c' ≤ c ∧ ∃ thaw', Reaches x t c' e.natAbs thaw') ∨
      (e.natAbs ≤ c ∧ (0 < e ↔ thaw = true) ∧ ∀ f ∈ evs, f.natAbs ≤ c → f.natAbs ≤ e.natAbs)) → Scan x t (done ++ [c]) evs := by
    intro hcc
    refine ⟨?_, h.order, ?_, ?_⟩
    · intro e he
      obtain ⟨d, hd, r⟩ := h.real e he
      exact ⟨d, hmono d hd, r⟩
    · intro k e f he hf
      obtain ⟨h1, d, hd, r⟩ := h.alternate k e f he hf
      exact ⟨h1, d, hmono d hd, r⟩
    · intro d hd p thaw hr
      rcases List.mem_append.1 hd with hd | hd
      · obtain ⟨e, he, hcase⟩ := h.complete d hd p thaw hr
        refine ⟨e, he, ?_⟩
        rcases hcase with ⟨g1, c', g2, g3⟩ | hcase
        · exact .inl ⟨g1, c', hmono c' g2, g3⟩
        · exact .inr hcase
      · rw [List.mem_singleton] at hd
        subst hd
        exact hcc p thaw hr
  rw [freezeStep, headD_append_zero]
  by_cases hskip : c < (evs.headD 0).natAbs
  · rw [if_pos hskip]
    refine ⟨evs, rfl, hkeep ?_⟩
    intro p thaw _
    cases evs with
    | nil => simp at hskip
    | cons e evs =>
      simp only [List.headD_cons] at hskip
      obtain ⟨d, hd, p', thaw', hr, rfl⟩ := h.real e (by simp)
      have := hgt d hd
      refine ⟨eventAt p' thaw', by simp, .inl ⟨hskip, d, hmono d hd, by omega, thaw', ?_⟩⟩
      rw [eventAt_natAbs]; exact hr
  · rw [if_neg hskip]
    cases hf : firstReached (cumsum 0 (0 :: x)) t c with
    | none =>
      refine ⟨evs, rfl, hkeep ?_⟩
      intro p thaw hr
      rw [firstReached_none x t c p thaw hr] at hf
      exact absurd hf (by simp)
    | some w =>
      obtain ⟨thaw, hr, hs⟩ := firstReached_some x t ht c w hc hf
      simp only []
      rw [hs]
      have hlater := hr.later
      by_cases hsame : (if thaw then (1 : Int) else -1) ≠ (evs.headD 0).sign
      · rw [if_pos hsame]
        have hev : (if thaw then (1 : Int) else -1) * ((w + c : Nat) : Int) = eventAt (c + w) thaw := by
          rw [Nat.add_comm w c]; unfold eventAt; cases thaw <;> simp
        rw [hev]
        refine ⟨eventAt (c + w) thaw :: evs, rfl, ?_, ?_, ?_, ?_⟩
        · intro e he
          rcases List.mem_cons.1 he with rfl | he
          · exact ⟨c, by simp, c + w, thaw, hr, rfl⟩
          · obtain ⟨d, hd, r⟩ := h.real e he
            exact ⟨d, hmono d hd, r⟩
        · rw [List.pairwise_cons]
          refine ⟨?_, h.order⟩
          intro f hf'
          rw [eventAt_natAbs]
          cases evs with
          | nil => simp at hf'
          | cons e evs =>
            simp only [List.headD_cons] at hskip
            have ho := h.order
            rw [List.pairwise_cons] at ho
            rcases List.mem_cons.1 hf' with rfl | hf'
            · omega
            · have := ho.1 f hf'; omega
        · intro k e f he hf'
          cases k with
          | zero =>
            simp only [List.getElem?_cons_zero, Option.some.injEq, Nat.zero_add, List.getElem?_cons_succ] at he hf'
            subst he
            cases evs with
            | nil => simp at hf'
            | cons g evs =>
              simp only [List.getElem?_cons_zero, Option.some.injEq] at hf'
              subst hf'
              simp only [List.headD_cons] at hskip hsame
              refine ⟨?_, c, by simp, by omega, c + w, thaw, hr, rfl⟩
              rw [eventAt_sign _ _ (by omega)]
              exact hsame
          | succ k =>
            obtain ⟨h1, d, hd, r⟩ := h.alternate k e f (by simpa using he) (by simpa using hf')
            exact ⟨h1, d, hmono d hd, r⟩
        · intro d hd p thaw' hr'
          rcases List.mem_append.1 hd with hd | hd
          · obtain ⟨e, he, hcase⟩ := h.complete d hd p thaw' hr'
            refine ⟨e, List.mem_cons_of_mem _ he, ?_⟩
            rcases hcase with ⟨g1, c', g2, g3⟩ | ⟨g1, g2, g3⟩
            · exact .inl ⟨g1, c', hmono c' g2, g3⟩
            · refine .inr ⟨g1, g2, ?_⟩
              intro f hf' hle
              rcases List.mem_cons.1 hf' with rfl | hf'
              · rw [eventAt_natAbs] at hle
                have := hgt d hd
                omega
              · exact g3 f hf' hle
          · rw [List.mem_singleton] at hd
            subst hd
            refine ⟨eventAt (d + w) thaw, by simp, .inl ⟨?_, d, by simp, by omega, thaw, ?_⟩⟩
            · rw [eventAt_natAbs]; exact hlater
            · rw [eventAt_natAbs]; exact hr
      · rw [if_neg hsame]
        refine ⟨evs, rfl, hkeep ?_⟩
        intro p thaw' hr'
        have he := firstReached_none x t c p thaw' hr'
        rw [hf, Option.some.injEq] at he
        have hp : p = c + w := by have := hr'.later; omega
        subst hp
        have hth : thaw' = thaw := by
          have h1 := hr.reached
          have h2 := hr'.reached
          cases thaw <;> cases thaw' <;> simp at h1 h2 ⊢ <;> grind
        subst hth
        cases evs with
        | nil => cases thaw' <;> simp at hsame
        | cons e evs =>
          simp only [List.headD_cons] at hskip hsame
          refine ⟨e, by simp, .inr ⟨by omega, ?_, ?_⟩⟩
          · obtain ⟨d, hd, p', th, hre, rfl⟩ := h.real e (by simp)
            have := hre.later
            rw [eventAt_sign _ _ (by omega)] at hsame
            rw [eventAt_pos _ _ (by omega)]
            cases thaw' <;> cases th <;> simp at hsame ⊢
          · intro f hf' _
            have ho := h.order
            rw [List.pairwise_cons] at ho
            rcases List.mem_cons.1 hf' with rfl | hf'
            · omega
            · have := ho.1 f hf'; omega

theorem scan_fold (x : List Rat) (t : Rat) (ht : 0 < t) : ∀ (todo done : List Nat) (evs : List Int), (∀ c ∈ todo, c ≤ x.length) →
    (done ++ todo).Pairwise (· < ·) → Scan x t done evs →
    ∃ evs', todo.foldl (freezeStep (cumsum 0 (0 :: x)) t) (evs ++ [0]) = evs' ++ [0] ∧ Scan x t (done ++ todo) evs' := by
  intro todo
  induction todo with
  | nil => intro done evs _ _ h; exact ⟨evs, rfl, by simpa using h⟩
  | cons c todo ih =>
    intro done evs hle hs h
    have hs' := hs
    rw [List.pairwise_append] at hs'
    obtain ⟨evs', he, h'⟩ := scan_step x t ht done evs c (hle c (by simp)) (fun d hd => hs'.2.2 d hd c (by simp)) h
    rw [List.foldl_cons, he]
    obtain ⟨evs'', he', h''⟩ := ih (done ++ [c]) evs' (fun d hd => hle d (List.mem_cons_of_mem _ hd)) (by simpa using hs) h'
    exact ⟨evs'', he', by simpa using h''⟩

theorem mem_starts (x : List Rat) (c : Nat) : (c ∈ 0 :: (crossings (0 :: x)).filter (fun c => decide (0 < c))) ↔ StartsAt x c := by
  simp only [crossings, List.mem_cons, List.mem_filter, List.mem_range, StartsAt, bne_iff_ne, ne_eq, List.length_cons, decide_eq_true_eq]
  apply or_congr Iff.rfl
  rcases c with _ | c
  · simp
  · simp only [List.getD_cons_succ, Nat.add_sub_cancel, decide_eq_decide, ge_iff_le]
    constructor
    · rintro ⟨⟨h1, h2⟩, h3⟩; exact ⟨h3, by omega, h2⟩
    · rintro ⟨h1, h2, h3⟩; exact ⟨⟨by omega, h3⟩, h1⟩

/-- A crossing at the first day is seen twice, to no effect. -/
theorem freezeStep_idem (cx : List Rat) (t : Rat) : freezeStep cx t (freezeStep cx t [0] 0) 0 = freezeStep cx t [0] 0 := by
  have h0 : freezeStep cx t [0] 0 = match firstReached cx t 0 with
      | none => [0]
      | some w => if signR (cx.getD (0 + w) 0 - cx.getD 0 0) ≠ 0 then signR (cx.getD (0 + w) 0 - cx.getD 0 0) * ((w + 0 : Nat) : Int) :: [0] else [0] := by
    rw [freezeStep]; rfl
  cases hf : firstReached cx t 0 with
  | none => rw [h0, hf]; rw [h0, hf]
  | some w =>
    rw [hf] at h0
    simp only [] at h0
    by_cases hz : signR (cx.getD (0 + w) 0 - cx.getD 0 0) ≠ 0
    · rw [if_pos hz] at h0
      rw [h0]
      generalize hs : signR (cx.getD (0 + w) 0 - cx.getD 0 0) = s at hz
      have hw : 0 < w := by
        rcases Nat.eq_zero_or_pos w with rfl | h
        · exfalso; apply hz; rw [← hs, signR, if_neg (by simp only [Nat.add_zero]; grind), if_pos (by simp only [Nat.add_zero]; grind)]
        · exact h
      rw [freezeStep, if_pos]
      simp only [List.headD_cons, Int.natAbs_mul, Int.natAbs_natCast, Nat.add_zero]
      have : 0 < s.natAbs := by omega
      exact Nat.mul_pos this hw
    · rw [if_neg hz] at h0
      rw [h0, h0]

theorem fold_filter (cx : List Rat) (t : Rat) (l : List Nat) (hl : l.Pairwise (· < ·)) :
    (0 :: l).foldl (freezeStep cx t) [0] = (0 :: l.filter (fun c => decide (0 < c))).foldl (freezeStep cx t) [0] := by
  cases l with
  | nil => rfl
  | cons c l =>
    rw [List.pairwise_cons] at hl
    have hf : l.filter (fun c => decide (0 < c)) = l := by
      rw [List.filter_eq_self]
      intro d hd
      have := hl.1 d hd
      simp; omega
    rcases Nat.eq_zero_or_pos c with rfl | h
    · rw [List.filter_cons_of_neg (by simp), hf]
      simp only [List.foldl_cons]
      rw [freezeStep_idem]
    · rw [List.filter_cons_of_pos (by simpa using h), hf]

/-- The scan of a whole series. -/
theorem scan_all (x : List Rat) (t : Rat) (ht : 0 < t) :
    ∃ evs, (0 :: crossings (0 :: x)).foldl (freezeStep (cumsum 0 (0 :: x)) t) [0] = evs ++ [0] ∧
      Scan x t (0 :: (crossings (0 :: x)).filter (fun c => decide (0 < c))) evs := by
  have hsort : (crossings (0 :: x)).Pairwise (· < ·) := List.Pairwise.filter _ List.pairwise_lt_range
  rw [fold_filter _ _ _ hsort]
  refine scan_fold x t ht (0 :: (crossings (0 :: x)).filter (fun c => decide (0 < c))) [] [] ?_ ?_ ?_
  · intro c hc
    rcases (mem_starts x c).1 hc with rfl | ⟨_, h, _⟩ <;> omega
  · rw [List.nil_append, List.pairwise_cons]
    refine ⟨?_, List.Pairwise.filter _ hsort⟩
    intro c hc
    simpa using (List.mem_filter.1 hc).2
  · exact ⟨by simp, by simp, by simp, by simp⟩

theorem freezeStep_nonpos (cx : List Rat) (t : Rat) (ht : t ≤ 0) (c : Nat) : freezeStep cx t [0] c = [0] := by
  rw [freezeStep, if_neg (by simp)]
  cases hf : firstReached cx t c with
  | none => rfl
  | some w =>
    have hw : w = 0 := by
      rw [firstReached, List.find?_range_eq_some] at hf
      rcases Nat.eq_zero_or_pos w with h | h
      · exact h
      · have := hf.2.2 0 h
        simp only [Nat.add_zero, Bool.not_eq_true', decide_eq_false_iff_not] at this
        exfalso
        apply this
        have he : cx.getD c 0 - cx.getD c 0 = 0 := by grind
        have h0 : absR 0 = 0 := by decide +kernel
        rw [he, h0]
        exact ht
    subst hw
    have he : cx.getD (c + 0) 0 - cx.getD c 0 = 0 := by simp only [Nat.add_zero]; grind
    have hs : signR (cx.getD (c + 0) 0 - cx.getD c 0) = 0 := by rw [he]; simp [signR]
    simp only []
    rw [if_neg]
    rw [hs]; simp

end Ocgis.Props
