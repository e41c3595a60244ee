import Verif.Spec.Coords
/-!
# Lemmas on coordinates
-/
namespace Ocgis.Coords
open Ocgis.Spec

theorem midpoints_length (c : List Rat) : (midpoints c).length = c.length - 1 := by
  induction c with
  | nil => rfl
  | cons a c ih =>
    cases c with
    | nil => rfl
    | cons b c => simp only [midpoints, List.length_cons] at ih ⊢; omega

theorem midpoints_get (c : List Rat) (i : Nat) (h : i + 1 < c.length) :
    (midpoints c)[i]? = some ((c[i]'(by omega) + c[i + 1]) / 2) := by
  induction c generalizing i with
  | nil => simp at h
  | cons a c ih =>
    cases c with
    | nil => simp at h
    | cons b c =>
      cases i with
      | zero => rfl
      | succ i =>
        have h' : i + 1 < (b :: c).length := by simp at h ⊢; omega
        simp only [midpoints, List.getElem?_cons_succ]
        rw [ih i h']
        rfl

theorem pairs_length (c : List Rat) : (pairs c).length = c.length - 1 := by
  induction c with
  | nil => rfl
  | cons a c ih =>
    cases c with
    | nil => rfl
    | cons b c => simp only [pairs, List.length_cons] at ih ⊢; omega

theorem pairs_get (c : List Rat) (i : Nat) (h : i + 1 < c.length) :
    (pairs c)[i]? = some (c[i]'(by omega), c[i + 1]) := by
  induction c generalizing i with
  | nil => simp at h
  | cons a c ih =>
    cases c with
    | nil => simp at h
    | cons b c =>
      cases i with
      | zero => rfl
      | succ i =>
        have h' : i + 1 < (b :: c).length := by simp at h ⊢; omega
        simp only [pairs, List.getElem?_cons_succ]
        rw [ih i h']
        rfl

theorem diffs_length (c : List Rat) : (diffs c).length = c.length - 1 := by
  induction c with
  | nil => rfl
  | cons a c ih =>
    cases c with
    | nil => rfl
    | cons b c => simp only [diffs, List.length_cons] at ih ⊢; omega

/-- The edges, by position. -/
theorem boundsVector_ok (c : List Rat) (h : 2 ≤ c.length) : ∃ diff e, boundsVector c = .ok e ∧ e.length = c.length + 1 ∧
    e[0]? = some ((c[0] + c[1]) / 2 - diff) ∧
    (∀ i (hi : i + 1 < c.length), e[i + 1]? = some ((c[i] + c[i + 1]) / 2)) ∧
    e[c.length]? = some ((c[c.length - 2] + c[c.length - 1]) / 2 + diff) ∧
    diff = (if (midpoints c).length = 1 then (diffs c).headD 0 else mean (diffs (midpoints c))) := by
  have hl := midpoints_length c
  let d := (if (midpoints c).length = 1 then (diffs c).headD 0 else mean (diffs (midpoints c)))
  let w := ((midpoints c).headD 0 - d) :: midpoints c
  refine ⟨d, w ++ [w.getLastD 0 + d], ?_, ?_, ?_, ?_, ?_, rfl⟩
  · unfold boundsVector
    rw [if_neg (by omega)]
  · simp [w, hl]; omega
  · have h0 := midpoints_get c 0 (by omega)
    have : (midpoints c).headD 0 = (c[0] + c[1]) / 2 := by
      rw [List.headD_eq_head?_getD, List.head?_eq_getElem?, h0]; rfl
    simp only [w, List.cons_append, List.getElem?_cons_zero, this]
  · intro i hi
    have hg := midpoints_get c i hi
    simp only [w, List.cons_append, List.getElem?_cons_succ]
    rw [List.getElem?_append_left (by omega), hg]
  · have hg := midpoints_get c (c.length - 2) (by omega)
    have hgl : w.getLastD 0 = (c[c.length - 2] + c[c.length - 2 + 1]) / 2 := by
      rw [List.getLastD_eq_getLast?, List.getLast?_eq_getElem?]
      have hw : w.length - 1 = (c.length - 2) + 1 := by simp [w, hl]; omega
      rw [hw]
      simp only [w, List.getElem?_cons_succ]
      rw [hg]
      rfl
    rw [List.getElem?_append_right (by simp [w, hl]; omega)]
    have : c.length - w.length = 0 := by
      simp [w, hl]; omega
    rw [this, hgl]
    simp only [List.getElem?_cons_zero, show c.length - 2 + 1 = c.length - 1 by omega]

theorem sum_const (l : List Rat) (d : Rat) (h : ∀ x ∈ l, x = d) : l.sum = l.length * d := by
  induction l with
  | nil => simp
  | cons a l ih =>
    rw [List.sum_cons, ih (fun x hx => h x (by simp [hx])), h a (by simp), List.length_cons]
    have : ((l.length + 1 : Nat) : Rat) = (l.length : Rat) + 1 := by simp
    rw [this]; grind

theorem diffs_const (l : List Rat) (d : Rat)
    (h : ∀ i (hi : i + 1 < l.length), l[i + 1] - l[i] = d) : ∀ x ∈ diffs l, x = d := by
  induction l with
  | nil => intro x hx; simp [diffs] at hx
  | cons a l ih =>
    cases l with
    | nil => intro x hx; simp [diffs] at hx
    | cons b l =>
      intro x hx
      simp only [diffs, List.mem_cons] at hx
      rcases hx with rfl | hx
      · exact h 0 (by simp)
      · exact ih (fun i hi => h (i + 1) (by simp at hi ⊢; omega)) x hx

theorem evenly_diff (a d : Rat) (n : Nat) (hn : 2 ≤ n) :
    (if (midpoints (evenly a d n)).length = 1 then (diffs (evenly a d n)).headD 0 else mean (diffs (midpoints (evenly a d n)))) = d := by
  have hlen : (evenly a d n).length = n := by simp [evenly]
  have hget : ∀ i (hi : i < (evenly a d n).length), (evenly a d n)[i] = a + i * d := by
    intro i hi; simp [evenly]
  have hsucc : ∀ i : Nat, ((i + 1 : Nat) : Rat) = (i : Rat) + 1 := by intro i; simp
  have hd1 : ∀ x ∈ diffs (evenly a d n), x = d := by
    apply diffs_const
    intro i hi
    rw [hget, hget, hsucc]
    grind
  split
  · have hne : diffs (evenly a d n) ≠ [] := by
      intro e
      have := diffs_length (evenly a d n)
      rw [e] at this; simp at this; omega
    obtain ⟨x, t, hx⟩ := List.exists_cons_of_ne_nil hne
    rw [hx]
    exact hd1 x (by rw [hx]; simp)
  · next hne1 =>
    have hml := midpoints_length (evenly a d n)
    have hd2 : ∀ x ∈ diffs (midpoints (evenly a d n)), x = d := by
      apply diffs_const
      intro i hi
      have g1 := midpoints_get (evenly a d n) i (by omega)
      have g2 := midpoints_get (evenly a d n) (i + 1) (by omega)
      rw [List.getElem?_eq_getElem (by omega)] at g1 g2
      rw [Option.some.inj g1, Option.some.inj g2, hget, hget, hget, hsucc (i + 1), hsucc i]
      grind
    unfold mean
    rw [sum_const _ d hd2]
    have hl := diffs_length (midpoints (evenly a d n))
    have hpos : ((diffs (midpoints (evenly a d n))).length : Rat) ≠ 0 := by
      have : (diffs (midpoints (evenly a d n))).length ≠ 0 := by omega
      exact_mod_cast this
    grind

theorem foldl_put {α : Type _} (g : Nat → Nat → α) (cells : Nat → Nat → Corners α) (l : List (Nat × Nat))
    (h : ∀ ij ∈ l, cells ij.1 ij.2 = ⟨g ij.2 ij.1, g (ij.2 + 1) ij.1, g (ij.2 + 1) (ij.1 + 1), g ij.2 (ij.1 + 1)⟩) :
    ∀ (fill : Nat → Nat → α) (p q : Nat),
      ((∃ ij ∈ l, (p = ij.2 ∨ p = ij.2 + 1) ∧ (q = ij.1 ∨ q = ij.1 + 1)) ∨ fill p q = g p q) →
      (l.foldl (putCell cells) fill) p q = g p q := by
  induction l with
  | nil => intro fill p q hh; rcases hh with ⟨_, h, _⟩ | h; simp at h; exact h
  | cons ij l ih =>
    intro fill p q hh
    rw [List.foldl_cons]
    apply ih (fun x hx => h x (by simp [hx]))
    have hc := h ij (by simp)
    by_cases hin : (p = ij.2 ∨ p = ij.2 + 1) ∧ (q = ij.1 ∨ q = ij.1 + 1)
    · right
      simp only [putCell, hc, put]
      rcases hin with ⟨rfl | rfl, rfl | rfl⟩ <;> simp
    · rcases hh with ⟨x, hx, hpq⟩ | hf
      · rcases List.mem_cons.1 hx with rfl | hx
        · exact absurd hpq hin
        · left; exact ⟨x, hx, hpq⟩
      · right
        simp only [putCell, put]
        rw [if_neg, if_neg, if_neg, if_neg]
        · exact hf
        all_goals rintro ⟨rfl, rfl⟩; exact hin ⟨by simp, by simp⟩

theorem cellIndices_cover (m n p q : Nat) (hm : 0 < m) (hn : 0 < n) (hp : p ≤ n) (hq : q ≤ m) :
    ∃ ij ∈ cellIndices m n, (p = ij.2 ∨ p = ij.2 + 1) ∧ (q = ij.1 ∨ q = ij.1 + 1) := by
  refine ⟨(if q < m then q else q - 1, if p < n then p else p - 1), ?_, ?_, ?_⟩
  · simp only [cellIndices, List.mem_flatMap, List.mem_range, List.mem_map]
    exact ⟨_, by split <;> omega, _, by split <;> omega, rfl⟩
  · simp only; split <;> omega
  · simp only; split <;> omega

theorem mem_cellIndices {m n : Nat} {ij : Nat × Nat} (h : ij ∈ cellIndices m n) : ij.1 < m ∧ ij.2 < n := by
  simp only [cellIndices, List.mem_flatMap, List.mem_range, List.mem_map] at h
  obtain ⟨i, hi, j, hj, rfl⟩ := h
  exact ⟨hi, hj⟩

theorem reorderLine_eq {α : Type _} (k : Nat) (line : List α) (_h : k ≤ line.length) :
    reorderLine k line = line.drop k ++ line.take k := by
  unfold reorderLine
  simp only
  congr 1
  rw [List.take_append_of_le_length (by simp)]
  rw [List.take_of_length_le (by simp)]

theorem splitIndex_ok (row : List Rat) (k : Nat) (h : splitIndex row = .ok k) :
    k < row.length ∧ (∃ x, row[k]? = some x ∧ x < 0) ∧ ∀ (j : Nat) x, j < k → row[j]? = some x → 0 ≤ x := by
  unfold splitIndex at h
  cases e : row.findIdx? (fun x => decide (x < 0)) with
  | none => rw [e] at h; cases h
  | some j =>
    rw [e] at h
    injection h with h
    subst h
    rw [List.findIdx?_eq_some_iff_getElem] at e
    obtain ⟨h1, h2, h3⟩ := e
    refine ⟨h1, ⟨row[j], List.getElem?_eq_getElem h1, by simpa using h2⟩, ?_⟩
    intro i x hi hx
    have := h3 i hi
    rw [List.getElem?_eq_getElem (by omega)] at hx
    cases hx
    simpa [Rat.not_lt] using this

end Ocgis.Coords
