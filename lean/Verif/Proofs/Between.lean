import Verif.Spec.Between
/-!
# Lemmas
-/
namespace Ocgis.Props
open Ocgis.Between Ocgis.Spec

theorem pick_range' (sel : List Bool) : ∀ s : Nat, (pick sel (List.range' s sel.length)).Pairwise (· < ·) ∧
    ∀ i, i ∈ pick sel (List.range' s sel.length) ↔ s ≤ i ∧ sel[i - s]? = some true := by
  induction sel with
  | nil => intro s; simp [pick]
  | cons b bs ih =>
    intro s
    obtain ⟨h1, h2⟩ := ih (s + 1)
    rw [List.length_cons, List.range'_succ]
    have hstep : ∀ i, s + 1 ≤ i → (b :: bs)[i - s]? = bs[i - (s + 1)]? := by
      intro i hi
      rw [show i - s = (i - (s + 1)) + 1 from by omega, List.getElem?_cons_succ]
    cases b with
    | true =>
      simp only [pick]
      refine ⟨?_, ?_⟩
      · rw [List.pairwise_cons]
        exact ⟨fun i hi => by have := (h2 i).1 hi; omega, h1⟩
      · intro i
        rw [List.mem_cons, h2]
        constructor
        · rintro (rfl | ⟨e1, e2⟩)
          · simp
          · exact ⟨by omega, by rw [hstep i e1]; exact e2⟩
        · rintro ⟨e1, e2⟩
          by_cases hi : i = s
          · exact .inl hi
          · exact .inr ⟨by omega, by rw [← hstep i (by omega)]; exact e2⟩
    | false =>
      simp only [pick]
      refine ⟨h1, ?_⟩
      intro i
      rw [h2]
      constructor
      · rintro ⟨e1, e2⟩
        exact ⟨by omega, by rw [hstep i e1]; exact e2⟩
      · rintro ⟨e1, e2⟩
        by_cases hi : i = s
        · subst hi; simp at e2
        · exact ⟨by omega, by rw [← hstep i (by omega)]; exact e2⟩

/-- The selected indices. -/
def selIdx (sel : List Bool) : List Nat := pick sel (List.range sel.length)

theorem selIdx_names (sel : List Bool) : Names (selIdx sel) sel (· = true) := by
  have := pick_range' sel 0
  rw [← List.range_eq_range'] at this
  refine ⟨this.1, ?_⟩
  intro i
  unfold selIdx
  rw [this.2]
  simp

theorem pick_elementsAt {α : Type _} (sel : List Bool) : ∀ (s : Nat) (pre xs : List α), pre.length = s → xs.length = sel.length →
    pick sel xs = elementsAt (pre ++ xs) (pick sel (List.range' s sel.length)) := by
  induction sel with
  | nil => intro s pre xs _ _; simp [pick, elementsAt]
  | cons b bs ih =>
    intro s pre xs hs hl
    cases xs with
    | nil => simp at hl
    | cons x xs =>
      have := ih (s + 1) (pre ++ [x]) xs (by simp [hs]) (by simpa using hl)
      rw [List.append_assoc] at this
      rw [List.length_cons, List.range'_succ]
      cases b with
      | true =>
        simp only [pick]
        rw [this]
        simp [elementsAt, ← hs]
      | false => exact this

theorem pick_selIdx {α : Type _} (sel : List Bool) (xs : List α) (h : xs.length = sel.length) :
    pick sel xs = elementsAt xs (selIdx sel) := by
  have := pick_elementsAt sel 0 [] xs rfl h
  rw [← List.range_eq_range'] at this
  exact this

/-- What `get_between` does, in terms of the selection. -/
theorem getBetween_ok (c : Coord) (lower upper : Rat) (ri closed useBounds : Bool) (sel : List Bool)
    (hsel : sel = selection c closed useBounds lower upper)
    (hl : sel.length = c.values.length) (hb : ∀ b, c.bounds = some b → b.length = c.values.length)
    (r : Coord) (out : Option (List Nat)) (h : getBetween c lower upper ri closed useBounds = .ok (r, out)) :
    r.values = elementsAt c.values (selIdx sel) ∧ r.bounds = c.bounds.map (elementsAt · (selIdx sel)) ∧
      selIdx sel ≠ [] ∧ out = if ri then some (selIdx sel) else none := by
  unfold getBetween at h
  split at h
  · cases h
  · split at h
    · cases h
    · simp only at h
      rw [← hsel] at h
      split at h
      · cases h
      · rename_i hany
        have hpv : pick sel c.values = elementsAt c.values (selIdx sel) := pick_selIdx sel _ hl.symm
        have hpb : c.bounds.map (pick sel) = c.bounds.map (elementsAt · (selIdx sel)) := by
          cases hc : c.bounds with
          | none => rfl
          | some b => simp only [Option.map_some]; rw [pick_selIdx sel b (by rw [hb b hc, hl])]
        have hne : selIdx sel ≠ [] := by
          intro hn
          apply hany
          intro hex
          rw [List.any_eq_true] at hex
          obtain ⟨x, hx, hx'⟩ := hex
          obtain ⟨i, hi⟩ := List.mem_iff_getElem?.1 hx
          have := ((selIdx_names sel).2 i).2 ⟨x, hi, hx'⟩
          rw [hn] at this; simp at this
        cases ri with
        | true =>
          simp only [if_true] at h
          split at h
          · cases h
          · injection h with h; injection h with h1 h2
            subst h1 h2
            exact ⟨hpv, hpb, hne, rfl⟩
        | false =>
          simp only [Bool.false_eq_true, if_false] at h
          injection h with h; injection h with h1 h2
          subst h1 h2
          exact ⟨hpv, hpb, hne, rfl⟩

theorem names_of_map {α : Type _} (l : List α) (f : α → Bool) (p : α → Prop) (h : ∀ a ∈ l, f a = true ↔ p a) :
    Names (selIdx (l.map f)) l p := by
  obtain ⟨h1, h2⟩ := selIdx_names (l.map f)
  refine ⟨h1, ?_⟩
  intro i
  rw [h2]
  constructor
  · rintro ⟨b, hb, rfl⟩
    rw [List.getElem?_map, Option.map_eq_some_iff] at hb
    obtain ⟨a, ha, hf⟩ := hb
    exact ⟨a, ha, (h a (List.mem_of_getElem? ha)).1 hf⟩
  · rintro ⟨a, ha, hp⟩
    exact ⟨true, by rw [List.getElem?_map, ha]; simp [(h a (List.mem_of_getElem? ha)).2 hp], rfl⟩

theorem contiguous_iff (bounds : List (Rat × Rat)) : contiguous bounds = true ↔ ShareEnd bounds := by
  match bounds with
  | [] => simp [contiguous, ShareEnd]
  | [_] => simp [contiguous, ShareEnd]
  | a :: b :: _ => simp [contiguous, ShareEnd]; grind

theorem between_point (a b : Rat) (h : a < b) : ∃ x, a < x ∧ x < b := ⟨(a + b) / 2, by grind, by grind⟩

theorem cell_closed (lower upper lo hi : Rat) (hlu : lower ≤ upper) (h : lo < hi) :
    (∃ x, lo < x ∧ x < hi ∧ lower ≤ x ∧ x ≤ upper) ↔ lower < hi ∧ lo < upper := by
  constructor
  · rintro ⟨x, h1, h2, h3, h4⟩; constructor <;> grind
  · rintro ⟨h1, h2⟩
    by_cases hl : lo < lower
    · exact ⟨lower, hl, h1, by grind, hlu⟩
    · by_cases hu : upper < hi
      · exact ⟨upper, h2, hu, hlu, by grind⟩
      · obtain ⟨x, e1, e2⟩ := between_point lo hi h
        exact ⟨x, e1, e2, by grind, by grind⟩

theorem cell_contiguous (lower upper lo hi : Rat) (hlu : lower ≤ upper) (h : lo < hi) :
    (∃ x, lo ≤ x ∧ x < hi ∧ lower ≤ x ∧ x ≤ upper) ↔ lower < hi ∧ lo ≤ upper := by
  constructor
  · rintro ⟨x, h1, h2, h3, h4⟩; constructor <;> grind
  · rintro ⟨h1, h2⟩
    by_cases hl : lo ≤ lower
    · exact ⟨lower, hl, h1, by grind, hlu⟩
    · exact ⟨lo, by grind, h, by grind, h2⟩

theorem cell_default (lower upper lo hi : Rat) (hlu : lower ≤ upper) (h : lo < hi) :
    (∃ x, lo ≤ x ∧ x ≤ hi ∧ lower ≤ x ∧ x ≤ upper) ↔ lower ≤ hi ∧ lo ≤ upper := by
  constructor
  · rintro ⟨x, h1, h2, h3, h4⟩; constructor <;> grind
  · rintro ⟨h1, h2⟩
    by_cases hl : lo ≤ lower
    · exact ⟨lower, hl, h1, by grind, hlu⟩
    · exact ⟨lo, by grind, by grind, by grind, h2⟩

theorem columns_proper (bounds : List (Rat × Rat)) (hd : SameDirection bounds) :
    columns bounds = bounds.map fun b => (min b.1 b.2, max b.1 b.2) := by
  have hup : (∀ b ∈ bounds, b.1 < b.2) → bounds = bounds.map fun b => (min b.1 b.2, max b.1 b.2) := by
    intro h
    conv => lhs; rw [← List.map_id bounds]
    apply List.map_congr_left
    intro b hb
    have := h b hb
    apply Prod.ext <;> simp only [id, Rat.min_def, Rat.max_def] <;> grind
  have hdn : (∀ b ∈ bounds, b.2 < b.1) → bounds.map (fun b => (b.2, b.1)) = bounds.map fun b => (min b.1 b.2, max b.1 b.2) := by
    intro h
    apply List.map_congr_left
    intro b hb
    have := h b hb
    apply Prod.ext <;> simp only [Rat.min_def, Rat.max_def] <;> grind
  cases hbs : bounds with
  | nil => rfl
  | cons b bs =>
    rw [← hbs]
    have hcol : columns bounds = if b.1 ≤ b.2 then bounds else bounds.map fun b => (b.2, b.1) := by rw [hbs]; rfl
    rw [hcol]
    have hbm : b ∈ bounds := by rw [hbs]; simp
    rcases hd with h | h
    · have := h b hbm
      rw [if_pos (by grind)]; exact hup h
    · have := h b hbm
      rw [if_neg (by grind)]; exact hdn h

theorem selectBounds_eq (closed : Bool) (lower upper : Rat) (hlu : lower ≤ upper) (bounds : List (Rat × Rat)) (hd : SameDirection bounds) :
    ∃ f : Rat × Rat → Bool, selectBounds closed lower upper bounds = bounds.map f ∧
      ∀ b ∈ bounds, f b = true ↔ CellInRange closed (contiguous bounds) lower upper (min b.1 b.2) (max b.1 b.2) := by
  refine ⟨fun b => (selectBounds closed lower upper bounds).length = 0 || (
    let b := (min b.1 b.2, max b.1 b.2)
    if closed then
      (decide (b.1 > lower) || decide (b.2 > lower)) && (decide (b.1 < upper) || decide (b.2 < upper))
    else if contiguous bounds then
      (decide (b.1 ≥ lower) || decide (b.2 > lower)) && (decide (b.1 ≤ upper) || decide (b.2 < upper))
    else
      (decide (b.1 ≥ lower) || decide (b.2 ≥ lower)) && (decide (b.1 ≤ upper) || decide (b.2 ≤ upper))), ?_, ?_⟩
  · cases hbs : bounds with
    | nil => rfl
    | cons b bs =>
      rw [← hbs]
      have hlen : (selectBounds closed lower upper bounds).length ≠ 0 := by
        rw [selectBounds, columns_proper _ hd, hbs]; simp
      simp only [hlen, decide_false, Bool.false_or]
      rw [selectBounds, columns_proper _ hd, List.map_map]
      rfl
  · intro b hb
    have hlen : (selectBounds closed lower upper bounds).length ≠ 0 := by
      rw [selectBounds, columns_proper _ hd]
      intro h
      simp at h; rw [h] at hb; simp at hb
    simp only [hlen, decide_false, Bool.false_or]
    have hlt : min b.1 b.2 < max b.1 b.2 := by
      rcases hd with h | h <;> have := h b hb <;> simp only [Rat.min_def, Rat.max_def] <;> grind
    generalize min b.1 b.2 = lo at *
    generalize max b.1 b.2 = hi at *
    unfold CellInRange
    split
    · rw [cell_closed _ _ _ _ hlu hlt]
      simp only [Bool.and_eq_true, Bool.or_eq_true, decide_eq_true_eq]; grind
    · split
      · rw [cell_contiguous _ _ _ _ hlu hlt]
        simp only [Bool.and_eq_true, Bool.or_eq_true, decide_eq_true_eq]; grind
      · rw [cell_default _ _ _ _ hlu hlt]
        simp only [Bool.and_eq_true, Bool.or_eq_true, decide_eq_true_eq]; grind

end Ocgis.Props
