import Verif.Spec.Extrapolate
import Verif.Proofs.Coords
/-!
# Helpers for the properties of extrapolated bounds
-/
namespace Ocgis.Proofs.Extrapolate
open Ocgis.Coords Ocgis.Extrapolate Ocgis.Spec

theorem diffs_line (k : Nat) (f : Nat → Rat) :
    diffs (line (k + 1) f) = (List.range k).map fun i => f (i + 1) - f i := by
  induction k generalizing f with
  | zero => rfl
  | succ k ih =>
    have h1 : line (k + 2) f = f 0 :: line (k + 1) (fun i => f (i + 1)) := by
      simp only [line]
      rw [List.range_succ_eq_map]
      simp [List.map_map, Function.comp_def]
    have h2 : line (k + 1) (fun i => f (i + 1)) = f 1 :: line k (fun i => f (i + 2)) := by
      simp only [line]
      rw [List.range_succ_eq_map]
      simp [List.map_map, Function.comp_def]
    rw [h1, h2, diffs, ← h2, ih, List.range_succ_eq_map]
    simp [List.map_map, Function.comp_def]

theorem sum_steps (k : Nat) (f : Nat → Rat) : ((List.range k).map fun i => f (i + 1) - f i).sum = f k - f 0 := by
  induction k with
  | zero => simp; grind
  | succ k ih =>
    rw [List.range_succ, List.map_append, List.sum_append, ih]
    simp
    grind

theorem sum_neg_steps (k : Nat) (f : Nat → Rat) : ((List.range k).map fun i => -(f (i + 1) - f i)).sum = f 0 - f k := by
  induction k with
  | zero => simp; grind
  | succ k ih =>
    rw [List.range_succ, List.map_append, List.sum_append, ih]
    simp
    grind

theorem mono_ends (k : Nat) (f : Nat → Rat) (h : ∀ i, i < k → f i ≤ f (i + 1)) : f 0 ≤ f k := by
  induction k with
  | zero => exact Rat.le_refl
  | succ k ih =>
    have := ih (fun i hi => h i (by omega))
    have := h k (by omega)
    grind

theorem anti_ends (k : Nat) (f : Nat → Rat) (h : ∀ i, i < k → f (i + 1) ≤ f i) : f k ≤ f 0 := by
  induction k with
  | zero => exact Rat.le_refl
  | succ k ih =>
    have := ih (fun i hi => h i (by omega))
    have := h k (by omega)
    grind

theorem isIncreasing_line (k : Nat) (f : Nat → Rat) : isIncreasing (line (k + 1) f) = decide (f 0 < f k) := by
  unfold isIncreasing
  have h1 : (line (k + 1) f).headD 0 = f 0 := by
    simp only [line]; rw [List.range_succ_eq_map]; rfl
  have h2 : (line (k + 1) f).getLastD 0 = f k := by
    simp only [line]; rw [List.range_succ, List.map_append]
    simp
  rw [h1, h2]

/-- The step the code takes, with the sign it gives it. -/
theorem signed_step (k : Nat) (f : Nat → Rat) (hk : 2 ≤ k) (h : OneWay k f) :
    (if isIncreasing (line k f) then meanAbsDiff (line k f) else -meanAbsDiff (line k f)) = meanStep k f := by
  obtain ⟨k, rfl⟩ : ∃ k', k = k' + 1 := ⟨k - 1, by omega⟩
  rw [isIncreasing_line]
  unfold meanAbsDiff meanStep mean
  rw [diffs_line, List.map_map]
  have hl : (List.map (absR ∘ fun i => f (i + 1) - f i) (List.range k)).length = k := by simp
  rw [hl]
  simp only [Nat.add_sub_cancel]
  rcases h with h | h
  · have e : List.map (absR ∘ fun i => f (i + 1) - f i) (List.range k) = (List.range k).map fun i => f (i + 1) - f i := by
      apply List.map_congr_left
      intro i hi
      have := h i (by have := List.mem_range.1 hi; omega)
      simp only [Function.comp, absR]
      rw [if_neg (by grind)]
    rw [e, sum_steps]
    by_cases hlt : f 0 < f k
    · simp [hlt]
    · have := mono_ends k f (fun i hi => h i (by omega))
      have e0 : f k - f 0 = 0 := by grind
      simp [hlt, e0, Rat.div_def]
  · have e : List.map (absR ∘ fun i => f (i + 1) - f i) (List.range k) = (List.range k).map fun i => -(f (i + 1) - f i) := by
      apply List.map_congr_left
      intro i hi
      have := h i (by have := List.mem_range.1 hi; omega)
      simp only [Function.comp, absR]
      by_cases h0 : f (i + 1) - f i < 0
      · rw [if_pos h0]
      · rw [if_neg h0]; grind
    rw [e, sum_neg_steps]
    have := anti_ends k f (fun i hi => h i (by omega))
    have hlt : ¬ f 0 < f k := by grind
    simp [hlt]
    rw [Rat.div_def, Rat.div_def]
    grind

/-- `a - d` or `a + d` by the direction, as one signed step. -/
theorem pick_minus (b : Bool) (a d s : Rat) (h : (if b then d else -d) = s) : (if b then a - d else a + d) = a - s := by
  cases b <;> simp at h ⊢ <;> grind

theorem pick_plus (b : Bool) (a d s : Rat) (h : (if b then d else -d) = s) : (if b then a + d else a - d) = a + s := by
  cases b <;> simp at h ⊢ <;> grind

section stages
variable (st : Rat → Rat) (m n : Nat) (inc : Bool) (d : Rat) (c : Nat → Nat → Rat) (i j : Nat)

theorem ext_left (h : i = 0 ∨ i = m) :
    fillExtremes st m n inc d c i 0 = st (if inc then c i 1 - d else c i 1 + d) := by
  unfold fillExtremes
  exact if_pos ⟨h, rfl⟩

theorem ext_right (h : i = 0 ∨ i = m) (hn : n ≠ 0) :
    fillExtremes st m n inc d c i n = st (if inc then c i (n - 1) + d else c i (n - 1) - d) := by
  unfold fillExtremes
  exact (if_neg (fun x => hn x.2)).trans (if_pos ⟨h, rfl⟩)

theorem ext_other (h : (i ≠ 0 ∧ i ≠ m) ∨ (j ≠ 0 ∧ j ≠ n)) : fillExtremes st m n inc d c i j = c i j := by
  unfold fillExtremes
  exact (if_neg (by omega)).trans (if_neg (by omega))

theorem cols_top (h : 1 ≤ j) (h2 : j < n) :
    fillCols st m n inc d c 0 j = st (if inc then c 1 j - d else c 1 j + d) := by
  unfold fillCols
  exact if_pos ⟨h, h2, rfl⟩

theorem cols_bottom (h : 1 ≤ j) (h2 : j < n) (hm : m ≠ 0) :
    fillCols st m n inc d c m j = st (if inc then c (m - 1) j + d else c (m - 1) j - d) := by
  unfold fillCols
  exact (if_neg (fun x => hm x.2.2)).trans (if_pos ⟨h, h2, rfl⟩)

theorem cols_other (h : i ≠ 0 ∧ i ≠ m) : fillCols st m n inc d c i j = c i j := by
  unfold fillCols
  exact (if_neg (by omega)).trans (if_neg (by omega))

theorem rows_left (h : 1 ≤ i) (h2 : i < m) :
    fillRows st m n inc d c i 0 = st (if inc then c i 1 - d else c i 1 + d) := by
  unfold fillRows
  exact if_pos ⟨h, h2, rfl⟩

theorem rows_right (h : 1 ≤ i) (h2 : i < m) (hn : n ≠ 0) :
    fillRows st m n inc d c i n = st (if inc then c i (n - 1) + d else c i (n - 1) - d) := by
  unfold fillRows
  exact (if_neg (fun x => hn x.2.2)).trans (if_pos ⟨h, h2, rfl⟩)

theorem rows_other (h : j ≠ 0 ∧ j ≠ n) : fillRows st m n inc d c i j = c i j := by
  unfold fillRows
  exact (if_neg (by omega)).trans (if_neg (by omega))

end stages

/-- An inner corner is the mean of the window. -/
theorem full_inside (st : Rat → Rat) (m n : Nat) (arr : Nat → Nat → Rat) (i j : Nat) (hi : i + 1 < m) (hj : j + 1 < n) :
    fullCorners st m n arr (i + 1) (j + 1) =
      st ((arr i j + arr i (j + 1) + arr (i + 1) j + arr (i + 1) (j + 1)) / 4) := by
  unfold fullCorners
  rw [ext_other _ _ _ _ _ _ _ _ (by omega), cols_other _ _ _ _ _ _ _ _ (by omega), rows_other _ _ _ _ _ _ _ _ (by omega)]
  unfold interior
  rw [if_pos (by omega)]
  simp only [Nat.add_sub_cancel]

theorem full_left (m n : Nat) (arr : Nat → Nat → Rat) (hm : 2 ≤ m) (hn : 2 ≤ n) (h : OneWay n fun j => arr 0 j) (i : Nat)
    (hi : i ≤ m) : fullCorners id m n arr i 0 = fullCorners id m n arr i 1 - meanStep n fun j => arr 0 j := by
  have hs := signed_step n (fun j => arr 0 j) hn h
  unfold fullCorners
  by_cases h0 : i = 0 ∨ i = m
  · rw [ext_left _ _ _ _ _ _ _ h0, ext_other _ _ _ _ _ _ _ _ (by omega)]
    exact pick_minus _ _ _ _ hs
  · rw [ext_other _ _ _ _ _ _ _ _ (by omega), ext_other _ _ _ _ _ _ _ _ (by omega), cols_other _ _ _ _ _ _ _ _ (by omega),
      cols_other _ _ _ _ _ _ _ _ (by omega), rows_left _ _ _ _ _ _ _ (by omega) (by omega),
      rows_other _ _ _ _ _ _ _ _ (by omega)]
    exact pick_minus _ _ _ _ hs

theorem full_right (m n : Nat) (arr : Nat → Nat → Rat) (hm : 2 ≤ m) (hn : 2 ≤ n) (h : OneWay n fun j => arr 0 j) (i : Nat)
    (hi : i ≤ m) : fullCorners id m n arr i n = fullCorners id m n arr i (n - 1) + meanStep n fun j => arr 0 j := by
  have hs := signed_step n (fun j => arr 0 j) hn h
  unfold fullCorners
  by_cases h0 : i = 0 ∨ i = m
  · rw [ext_right _ _ _ _ _ _ _ h0 (by omega), ext_other _ _ _ _ _ _ _ _ (by omega)]
    exact pick_plus _ _ _ _ hs
  · rw [ext_other _ _ _ _ _ _ _ _ (by omega), ext_other _ _ _ _ _ _ _ _ (by omega), cols_other _ _ _ _ _ _ _ _ (by omega),
      cols_other _ _ _ _ _ _ _ _ (by omega), rows_right _ _ _ _ _ _ _ (by omega) (by omega) (by omega),
      rows_other _ _ _ _ _ _ _ _ (by omega)]
    exact pick_plus _ _ _ _ hs

theorem full_top_inner (m n : Nat) (arr : Nat → Nat → Rat) (hm : 2 ≤ m) (h : OneWay m fun i => arr i 0) (j : Nat)
    (hj : 1 ≤ j) (hj2 : j < n) : fullCorners id m n arr 0 j = fullCorners id m n arr 1 j - meanStep m fun i => arr i 0 := by
  have hs := signed_step m (fun i => arr i 0) hm h
  unfold fullCorners
  rw [ext_other _ _ _ _ _ _ _ _ (by omega), ext_other _ _ _ _ _ _ _ _ (by omega), cols_top _ _ _ _ _ _ _ hj hj2,
    cols_other _ _ _ _ _ _ _ _ (by omega)]
  exact pick_minus _ _ _ _ hs

theorem full_bottom_inner (m n : Nat) (arr : Nat → Nat → Rat) (hm : 2 ≤ m) (h : OneWay m fun i => arr i 0) (j : Nat)
    (hj : 1 ≤ j) (hj2 : j < n) :
    fullCorners id m n arr m j = fullCorners id m n arr (m - 1) j + meanStep m fun i => arr i 0 := by
  have hs := signed_step m (fun i => arr i 0) hm h
  unfold fullCorners
  rw [ext_other _ _ _ _ _ _ _ _ (by omega), ext_other _ _ _ _ _ _ _ _ (by omega), cols_bottom _ _ _ _ _ _ _ hj hj2 (by omega),
    cols_other _ _ _ _ _ _ _ _ (by omega)]
  exact pick_plus _ _ _ _ hs

theorem full_top (m n : Nat) (arr : Nat → Nat → Rat) (hm : 2 ≤ m) (hn : 2 ≤ n) (hr : OneWay n fun j => arr 0 j)
    (h : OneWay m fun i => arr i 0) (j : Nat) (hj : j ≤ n) :
    fullCorners id m n arr 0 j = fullCorners id m n arr 1 j - meanStep m fun i => arr i 0 := by
  by_cases h0 : j = 0
  · subst h0
    rw [full_left m n arr hm hn hr 0 (by omega), full_left m n arr hm hn hr 1 (by omega),
      full_top_inner m n arr hm h 1 (by omega) (by omega)]
    grind
  · by_cases h1 : j = n
    · subst h1
      rw [full_right m j arr hm hn hr 0 (by omega), full_right m j arr hm hn hr 1 (by omega),
        full_top_inner m j arr hm h (j - 1) (by omega) (by omega)]
      grind
    · exact full_top_inner m n arr hm h j (by omega) (by omega)

theorem full_bottom (m n : Nat) (arr : Nat → Nat → Rat) (hm : 2 ≤ m) (hn : 2 ≤ n) (hr : OneWay n fun j => arr 0 j)
    (h : OneWay m fun i => arr i 0) (j : Nat) (hj : j ≤ n) :
    fullCorners id m n arr m j = fullCorners id m n arr (m - 1) j + meanStep m fun i => arr i 0 := by
  by_cases h0 : j = 0
  · subst h0
    rw [full_left m n arr hm hn hr m (by omega), full_left m n arr hm hn hr (m - 1) (by omega),
      full_bottom_inner m n arr hm h 1 (by omega) (by omega)]
    grind
  · by_cases h1 : j = n
    · subst h1
      rw [full_right m j arr hm hn hr m (by omega), full_right m j arr hm hn hr (m - 1) (by omega),
        full_bottom_inner m j arr hm h (j - 1) (by omega) (by omega)]
      grind
    · exact full_bottom_inner m n arr hm h j (by omega) (by omega)

theorem meanStep_shift (k : Nat) (f : Nat → Rat) (c : Rat) : meanStep k (fun i => f i + c) = meanStep k f := by
  unfold meanStep; congr 1; grind

theorem meanStep_shift' (k : Nat) (f : Nat → Rat) (c : Rat) : meanStep k (fun i => c + f i) = meanStep k f := by
  unfold meanStep; congr 1; grind

theorem edge_first (k : Nat) (f : Nat → Rat) : edgeOf k f 0 = (f 0 + f 1) / 2 - meanStep k f := rfl

theorem edge_last (k : Nat) (f : Nat → Rat) (hk : k ≠ 0) :
    edgeOf k f k = (f (k - 2) + f (k - 1)) / 2 + meanStep k f := by
  rw [edgeOf, if_neg hk, if_pos rfl]

theorem edge_inner (k : Nat) (f : Nat → Rat) (i : Nat) (h0 : i ≠ 0) (h1 : i ≠ k) :
    edgeOf k f i = (f (i - 1) + f i) / 2 := by
  rw [edgeOf, if_neg h0, if_neg h1]

/-- Arrays that are a sum of a row part and a column part. -/
theorem full_sum (m n : Nat) (f g : Nat → Rat) (hm : 2 ≤ m) (hn : 2 ≤ n) (hf : OneWay m f) (hg : OneWay n g) (i j : Nat)
    (hi : i ≤ m) (hj : j ≤ n) : fullCorners id m n (fun i j => f i + g j) i j = edgeOf m f i + edgeOf n g j := by
  have hr : OneWay n fun j => (fun i j => f i + g j) 0 j := by
    rcases hg with h | h
    · exact Or.inl fun i hi => by have := h i hi; simp only; grind
    · exact Or.inr fun i hi => by have := h i hi; simp only; grind
  have hc : OneWay m fun i => (fun i j => f i + g j) i 0 := by
    rcases hf with h | h
    · exact Or.inl fun i hi => by have := h i hi; simp only; grind
    · exact Or.inr fun i hi => by have := h i hi; simp only; grind
  have inner : ∀ i j, 1 ≤ i → i < m → 1 ≤ j → j < n →
      fullCorners id m n (fun i j => f i + g j) i j = (f (i - 1) + f i) / 2 + (g (j - 1) + g j) / 2 := by
    intro i j h1 h2 h3 h4
    have := full_inside id m n (fun i j => f i + g j) (i - 1) (j - 1) (by omega) (by omega)
    rw [show i - 1 + 1 = i by omega, show j - 1 + 1 = j by omega] at this
    rw [this]; simp only [id]; grind
  have cols : ∀ i j, 1 ≤ i → i < m → j ≤ n →
      fullCorners id m n (fun i j => f i + g j) i j = (f (i - 1) + f i) / 2 + edgeOf n g j := by
    intro i j h1 h2 h3
    unfold edgeOf
    by_cases h0 : j = 0
    · subst h0
      rw [if_pos rfl, full_left m n _ hm hn hr i (by omega), inner i 1 h1 h2 (by omega) (by omega), meanStep_shift']
      grind
    · rw [if_neg h0]
      by_cases h4 : j = n
      · subst h4
        rw [if_pos rfl, full_right m j _ hm hn hr i (by omega), inner i (j - 1) h1 h2 (by omega) (by omega), meanStep_shift',
          show j - 1 - 1 = j - 2 by omega]
        grind
      · rw [if_neg h4]
        exact inner i j h1 h2 (by omega) (by omega)
  by_cases h0 : i = 0
  · subst h0
    rw [full_top m n _ hm hn hr hc j hj, cols 1 j (by omega) (by omega) hj, meanStep_shift]
    rw [edge_first]
    simp only [Nat.sub_self]
    grind
  · by_cases h1 : i = m
    · subst h1
      rw [full_bottom i n _ hm hn hr hc j hj, cols (i - 1) j (by omega) (by omega) hj, meanStep_shift]
      rw [edge_last i f h0, show i - 1 - 1 = i - 2 by omega]
      grind
    · rw [cols i j (by omega) (by omega) hj, edge_inner m f i h0 h1]

theorem edgeOf_even (k : Nat) (a d : Rat) (hk : 2 ≤ k) (i : Nat) (hi : i ≤ k) :
    edgeOf k (fun i => a + (i : Rat) * d) i = a + ((i : Rat) - 1 / 2) * d := by
  have hs : meanStep k (fun i => a + (i : Rat) * d) = d := by
    unfold meanStep
    have h0 : ((k - 1 : Nat) : Rat) ≠ 0 := by
      intro h
      have : (k - 1 : Nat) = 0 := by exact_mod_cast h
      omega
    have e : a + ((k - 1 : Nat) : Rat) * d - (a + ((0 : Nat) : Rat) * d) = ((k - 1 : Nat) : Rat) * d := by simp; grind
    rw [e, Rat.mul_comm, Rat.mul_div_cancel h0]
  unfold edgeOf
  by_cases h0 : i = 0
  · subst h0; rw [if_pos rfl, hs]; simp; grind
  · rw [if_neg h0]
    by_cases h1 : i = k
    · subst h1
      rw [if_pos rfl, hs]
      obtain ⟨q, rfl⟩ : ∃ q, i = q + 2 := ⟨i - 2, by omega⟩
      simp only [show q + 2 - 2 = q by omega, show q + 2 - 1 = q + 1 by omega]
      push_cast
      grind
    · rw [if_neg h1]
      obtain ⟨q, rfl⟩ : ∃ q, i = q + 1 := ⟨i - 1, by omega⟩
      simp only [Nat.add_sub_cancel]
      push_cast
      grind

theorem boundsVectorSt_id (c : List Rat) (h : 2 ≤ c.length) : ∃ e, boundsVectorSt id c = .ok e ∧ boundsVector c = .ok e := by
  unfold boundsVectorSt boundsVector
  rw [if_neg (by omega), if_neg (by omega)]
  simp only [List.map_id_fun, id]
  exact ⟨_, rfl, rfl⟩

theorem boundsFrom1dSt_id (c : List Rat) (cells : List (Rat × Rat)) (h : boundsFrom1d c = .ok cells) :
    boundsFrom1dSt id c = .ok cells := by
  have h2 : 2 ≤ c.length := by
    by_cases h2 : c.length < 2
    · unfold boundsFrom1d boundsVector at h
      rw [if_pos h2] at h
      cases h
    · omega
  obtain ⟨e, h1, h3⟩ := boundsVectorSt_id c h2
  unfold boundsFrom1d at h
  rw [h3] at h
  unfold boundsFrom1dSt
  rw [h1]
  simp only [id]
  have : (pairs e).map (fun b => (b.1, b.2)) = pairs e := by simp
  rw [this]
  cases h
  rfl

theorem lookup_put (vs : Vars) (n x : String) (v : Var) :
    (putVar n v vs).lookup x = if x = n then (vs.lookup n).map fun _ => v else vs.lookup x := by
  unfold putVar
  induction vs with
  | nil => simp
  | cons p vs ih =>
    rw [List.map_cons]
    by_cases hp : p.1 = n
    · rw [if_pos hp, List.lookup_cons, List.lookup_cons, List.lookup_cons]
      by_cases hx : x = n
      · subst hx; simp [hp]
      · have e1 : (x == n) = false := by simpa using hx
        have e2 : (x == p.1) = false := by rw [hp]; exact e1
        rw [e1, e2]
        simp only
        rw [ih, if_neg hx, if_neg hx]
    · rw [if_neg hp, List.lookup_cons, List.lookup_cons, List.lookup_cons]
      by_cases hx : x = n
      · subst hx
        have e1 : (x == p.1) = false := by simpa using fun h => hp h.symm
        rw [e1]
        simp only
        rw [ih]; simp
      · rw [if_neg hx]
        cases hxp : (x == p.1)
        · simp only; rw [ih, if_neg hx]
        · rfl

theorem lookup_none_any (vs : Vars) (x : String) : vs.lookup x = none → vs.any (fun p => p.1 == x) = false := by
  intro h
  induction vs with
  | nil => rfl
  | cons p vs ih =>
    rw [List.lookup_cons] at h
    cases hx : (x == p.1) with
    | true => rw [hx] at h; cases h
    | false =>
      rw [hx] at h
      have : (p.1 == x) = false := by
        have hne : x ≠ p.1 := by simpa using hx
        simpa using fun h => hne h.symm
      rw [List.any_cons, this, ih h]
      rfl

theorem lookup_snoc (vs : Vars) (n x : String) (v : Var) (hn : vs.lookup n = none) :
    (vs ++ [(n, v)]).lookup x = if x = n then some v else vs.lookup x := by
  rw [List.lookup_append]
  by_cases hx : x = n
  · subst hx; rw [hn, if_pos rfl]; simp
  · rw [if_neg hx]
    have : List.lookup x [(n, v)] = none := by
      have e : (x == n) = false := by simpa using hx
      rw [List.lookup_cons, e]; rfl
    rw [this]; simp

/-- The variable with the name of its bounds, and the bounds variable. -/
def told (v : Var) (nb : String) : Var := { v with bounds := some nb }
def made (v : Var) (ds : List (String × Nat)) (nd : String) (val : Val) (size : Nat) : Var :=
  { val := val, dims := some (ds ++ [(nd, size)]), bounds := none, empty := v.empty, float := v.float }

/-- A bounds variable with a new name. -/
theorem set_new (vs : Vars) (n nb nd : String) (v : Var) (ds : List (String × Nat)) (val : Val) (size : Nat)
    (hv : vs.lookup n = some v) (hb : v.bounds = none) (hd : v.dims = some ds) (hbv : boundsValue v = .ok (val, size))
    (hnew : vs.lookup nb = none) :
    setExtrapolated n nb nd vs = (putVar n (told v nb) vs ++ [(nb, made v ds nd val size)], none) ∧
    (putVar n (told v nb) vs ++ [(nb, made v ds nd val size)]).lookup n = some (told v nb) ∧
    (putVar n (told v nb) vs ++ [(nb, made v ds nd val size)]).lookup nb = some (made v ds nd val size) ∧
    (∀ x, x ≠ n → x ≠ nb → (putVar n (told v nb) vs ++ [(nb, made v ds nd val size)]).lookup x = vs.lookup x) := by
  have hne : nb ≠ n := by intro h; rw [h, hv] at hnew; cases hnew
  have hl : (putVar n (told v nb) vs).lookup nb = none := by
    rw [lookup_put, if_neg hne, hnew]
  have ha := lookup_none_any _ _ hl
  refine ⟨?_, ?_, ?_, ?_⟩
  · have : setBounds n nb v (made v ds nd val size) vs = (putVar n (told v nb) vs ++ [(nb, made v ds nd val size)], none) := by
      show (if (putVar n (told v nb) vs).any (fun p => p.1 == nb) then _ else _) = _
      rw [ha]; rfl
    rw [← this]
    unfold setExtrapolated
    rw [hv]
    simp only [hb, Option.isSome_none, Bool.false_eq_true, if_false]
    rw [hd]
    simp only
    rw [hbv]
    rfl
  · rw [lookup_snoc _ _ _ _ hl, if_neg (Ne.symm hne), lookup_put, if_pos rfl, hv]; rfl
  · rw [lookup_snoc _ _ _ _ hl, if_pos rfl]
  · intro x h1 h2
    rw [lookup_snoc _ _ _ _ hl, if_neg h2, lookup_put, if_neg h1]

end Ocgis.Proofs.Extrapolate
