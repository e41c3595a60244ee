import Verif.Spec.ExtentGlobal
/-!
# Lemmas on global extents
-/
namespace Ocgis.Proofs.ExtentGlobal
open Spec Ocgis.ExtentGlobal

theorem foldl_min (l : List Rat) : ∀ a, l.foldl min a ∈ a :: l ∧ ∀ q ∈ a :: l, l.foldl min a ≤ q := by
  induction l with
  | nil => intro a; simp
  | cons b l ih =>
    intro a
    obtain ⟨h1, h2⟩ := ih (min a b)
    simp only [List.foldl_cons]
    have hab : min a b = a ∨ min a b = b := by grind
    refine ⟨?_, ?_⟩
    · rcases List.mem_cons.1 h1 with h | h
      · rw [h]
        rcases hab with h | h <;> rw [h] <;> simp
      · simp [h]
    · intro q hq
      have h0 := h2 (min a b) (List.mem_cons_self ..)
      simp only [List.mem_cons] at hq
      rcases hq with rfl | rfl | hq
      · grind
      · grind
      · exact h2 q (List.mem_cons_of_mem _ hq)

theorem foldl_max (l : List Rat) : ∀ a, l.foldl max a ∈ a :: l ∧ ∀ q ∈ a :: l, q ≤ l.foldl max a := by
  induction l with
  | nil => intro a; simp
  | cons b l ih =>
    intro a
    obtain ⟨h1, h2⟩ := ih (max a b)
    simp only [List.foldl_cons]
    have hab : max a b = a ∨ max a b = b := by grind
    refine ⟨?_, ?_⟩
    · rcases List.mem_cons.1 h1 with h | h
      · rw [h]
        rcases hab with h | h <;> rw [h] <;> simp
      · simp [h]
    · intro q hq
      have h0 := h2 (max a b) (List.mem_cons_self ..)
      simp only [List.mem_cons] at hq
      rcases hq with rfl | rfl | hq
      · grind
      · grind
      · exact h2 q (List.mem_cons_of_mem _ hq)

theorem minOf_spec (l : List Rat) (h : l ≠ []) : ∃ m, minOf l = some m ∧ LeastOf (fun q => q ∈ l) m := by
  cases l with
  | nil => exact absurd rfl h
  | cons a l => exact ⟨_, rfl, (foldl_min l a).1, (foldl_min l a).2⟩

theorem maxOf_spec (l : List Rat) (h : l ≠ []) : ∃ m, maxOf l = some m ∧ GreatestOf (fun q => q ∈ l) m := by
  cases l with
  | nil => exact absurd rfl h
  | cons a l => exact ⟨_, rfl, (foldl_max l a).1, (foldl_max l a).2⟩

theorem mem_counted (vectorized : Bool) (cells : List Cell) (q : Rat) : q ∈ counted vectorized cells ↔ Counts vectorized cells q := by
  unfold counted Counts
  cases vectorized with
  | true => simp
  | false =>
    simp only [Bool.false_eq_true, if_false, List.mem_map, List.mem_filter, Bool.not_eq_true', forall_const]
    constructor
    · rintro ⟨c, ⟨h1, h2⟩, h3⟩; exact ⟨c, h1, h3, h2⟩
    · rintro ⟨c, h1, h3, h2⟩; exact ⟨c, ⟨h1, h2⟩, h3⟩

theorem counted_ne {vectorized : Bool} {cells : List Cell} (h : ∃ q, Counts vectorized cells q) : counted vectorized cells ≠ [] := by
  obtain ⟨q, hq⟩ := h
  have := (mem_counted vectorized cells q).2 hq
  intro he
  rw [he] at this
  simp at this

theorem counted_nil {vectorized : Bool} {cells : List Cell} (h : ¬ ∃ q, Counts vectorized cells q) : counted vectorized cells = [] := by
  rw [List.eq_nil_iff_forall_not_mem]
  intro q hq
  exact h ⟨q, (mem_counted vectorized cells q).1 hq⟩

/-- The least of the least of the parts is the least of all. -/
theorem npMin_spec {α : Type} (parts : List α) (f : α → List Rat) (hne : parts ≠ []) (h : ∀ p ∈ parts, f p ≠ []) :
    ∃ m, npMin (parts.map fun p => minOf (f p)) = some m ∧ LeastOf (fun q => ∃ p ∈ parts, q ∈ f p) m := by
  unfold npMin
  have hnone : (parts.map fun p => minOf (f p)).contains none = false := by
    rw [List.contains_eq_mem, decide_eq_false_iff_not, List.mem_map]
    rintro ⟨p, hp, he⟩
    obtain ⟨m, hm, -⟩ := minOf_spec _ (h p hp)
    rw [hm] at he
    cases he
  rw [if_neg (by rw [hnone]; simp)]
  obtain ⟨m, hm, h1, h2⟩ := minOf_spec ((parts.map fun p => minOf (f p)).filterMap id) (by
    obtain ⟨p, hp⟩ := List.exists_mem_of_ne_nil _ hne
    obtain ⟨m, hm, -⟩ := minOf_spec _ (h p hp)
    apply List.ne_nil_of_mem (a := m)
    simp only [List.mem_filterMap, List.mem_map, id]
    exact ⟨some m, ⟨p, hp, hm⟩, rfl⟩)
  refine ⟨m, hm, ?_, ?_⟩
  · simp only [List.mem_filterMap, List.mem_map, id] at h1
    obtain ⟨_, ⟨p, hp, he⟩, rfl⟩ := h1
    obtain ⟨m', hm', h3, -⟩ := minOf_spec _ (h p hp)
    rw [he] at hm'
    cases hm'
    exact ⟨p, hp, h3⟩
  · rintro q ⟨p, hp, hq⟩
    obtain ⟨m', hm', -, h4⟩ := minOf_spec _ (h p hp)
    have h5 := h4 q hq
    have h6 := h2 m' (by
      simp only [List.mem_filterMap, List.mem_map, id]
      exact ⟨some m', ⟨p, hp, hm'⟩, rfl⟩)
    exact Rat.le_trans h6 h5

theorem npMax_spec {α : Type} (parts : List α) (f : α → List Rat) (hne : parts ≠ []) (h : ∀ p ∈ parts, f p ≠ []) :
    ∃ m, npMax (parts.map fun p => maxOf (f p)) = some m ∧ GreatestOf (fun q => ∃ p ∈ parts, q ∈ f p) m := by
  unfold npMax
  have hnone : (parts.map fun p => maxOf (f p)).contains none = false := by
    rw [List.contains_eq_mem, decide_eq_false_iff_not, List.mem_map]
    rintro ⟨p, hp, he⟩
    obtain ⟨m, hm, -⟩ := maxOf_spec _ (h p hp)
    rw [hm] at he
    cases he
  rw [if_neg (by rw [hnone]; simp)]
  obtain ⟨m, hm, h1, h2⟩ := maxOf_spec ((parts.map fun p => maxOf (f p)).filterMap id) (by
    obtain ⟨p, hp⟩ := List.exists_mem_of_ne_nil _ hne
    obtain ⟨m, hm, -⟩ := maxOf_spec _ (h p hp)
    apply List.ne_nil_of_mem (a := m)
    simp only [List.mem_filterMap, List.mem_map, id]
    exact ⟨some m, ⟨p, hp, hm⟩, rfl⟩)
  refine ⟨m, hm, ?_, ?_⟩
  · simp only [List.mem_filterMap, List.mem_map, id] at h1
    obtain ⟨_, ⟨p, hp, he⟩, rfl⟩ := h1
    obtain ⟨m', hm', h3, -⟩ := maxOf_spec _ (h p hp)
    rw [he] at hm'
    cases hm'
    exact ⟨p, hp, h3⟩
  · rintro q ⟨p, hp, hq⟩
    obtain ⟨m', hm', -, h4⟩ := maxOf_spec _ (h p hp)
    have h5 := h4 q hq
    have h6 := h2 m' (by
      simp only [List.mem_filterMap, List.mem_map, id]
      exact ⟨some m', ⟨p, hp, hm'⟩, rfl⟩)
    exact Rat.le_trans h5 h6

theorem reduce_spec (vectorized : Bool) (ps : List Part) (hne : ps ≠ []) (h : ∀ p ∈ ps, HasValues vectorized p) :
    IsExtentOf vectorized ps (reduce (ps.map (extentOf vectorized))) := by
  obtain ⟨x0, a1, a2⟩ := npMin_spec ps (fun p => counted vectorized p.xs) hne fun p hp => counted_ne (h p hp).1
  obtain ⟨y0, b1, b2⟩ := npMin_spec ps (fun p => counted vectorized p.ys) hne fun p hp => counted_ne (h p hp).2
  obtain ⟨x1, c1, c2⟩ := npMax_spec ps (fun p => counted vectorized p.xs) hne fun p hp => counted_ne (h p hp).1
  obtain ⟨y1, d1, d2⟩ := npMax_spec ps (fun p => counted vectorized p.ys) hne fun p hp => counted_ne (h p hp).2
  refine ⟨x0, y0, x1, y1, ?_, ?_, ?_, ?_, ?_⟩
  · simp only [reduce, List.map_map, Function.comp_def, extentOf, a1, b1, c1, d1]
  · simpa only [mem_counted] using a2
  · simpa only [mem_counted] using b2
  · simpa only [mem_counted] using c2
  · simpa only [mem_counted] using d2

theorem least_unique {P : Rat → Prop} {a b : Rat} (ha : LeastOf P a) (hb : LeastOf P b) : a = b := Rat.le_antisymm (ha.2 b hb.1) (hb.2 a ha.1)

theorem greatest_unique {P : Rat → Prop} {a b : Rat} (ha : GreatestOf P a) (hb : GreatestOf P b) : a = b :=
  Rat.le_antisymm (hb.2 a ha.1) (ha.2 b hb.1)

theorem outcome_full (vectorized : Bool) (ps : List Part) :
    extentGlobal vectorized (ps.map some) = ps.map fun _ => .returns (reduce (ps.map (extentOf vectorized))) := by
  have h1 : (ps.map some).contains none = false := by simp
  have h2 : (ps.map some).filterMap id = ps := by simp [List.filterMap_map]
  unfold extentGlobal
  rw [if_neg (by rw [h1]; simp), h2]
  simp

end Ocgis.Proofs.ExtentGlobal
