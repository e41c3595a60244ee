import Verif.Spec.VarResolution
/-!
# Lemmas on the resolution of coordinate variables
-/
namespace Ocgis.Proofs.VarResolution
open Spec Ocgis.VarResolution

theorem foldl_add (l : List Rat) : ∀ a, l.foldl (· + ·) a = a + total l := by
  induction l with
  | nil => intro a; simp [total, Rat.add_zero]
  | cons b l ih =>
    intro a
    unfold total at ih ⊢
    rw [List.foldl_cons, List.foldl_cons, ih, ih (0 + b), Rat.zero_add, Rat.add_assoc]

theorem total_cons (a : Rat) (l : List Rat) : total (a :: l) = a + total l := by
  unfold total
  rw [List.foldl_cons, Rat.zero_add, foldl_add]
  rfl

theorem abs_distance (a b : Rat) : abs (b - a) = distance a b := by
  unfold abs distance
  by_cases h : a ≤ b
  · rw [if_pos h, if_neg (by grind)]
  · rw [if_neg h, if_pos (by grind)]; grind

theorem diff_length : ∀ l : List Rat, (diff l).length = l.length - 1
  | [] => rfl
  | [_] => rfl
  | a :: b :: l => by
    rw [diff, List.length_cons, diff_length (b :: l)]
    simp

theorem bounds_total (bs : List (Rat × Rat)) : total (bs.map fun b => abs (b.2 - b.1)) = widths bs := by
  induction bs with
  | nil => rfl
  | cons b bs ih => rw [List.map_cons, total_cons, ih, abs_distance, widths]

/-- What the code sums up without bounds. -/
def summed (l : List Rat) : Rat := total ((diff (l.map abs)).map abs)

theorem summed_cons (a b : Rat) (l : List Rat) : summed (a :: b :: l) = distance (abs a) (abs b) + summed (b :: l) := by
  unfold summed
  rw [List.map_cons, List.map_cons, diff, List.map_cons, total_cons, abs_distance]

theorem abs_nonneg_eq {a : Rat} (h : 0 ≤ a) : abs a = a := by unfold abs; rw [if_neg (by grind)]

theorem summed_nonneg : ∀ l : List Rat, (∀ a ∈ l, 0 ≤ a) → summed l = travelled l
  | [], _ => rfl
  | [_], _ => rfl
  | a :: b :: l, h => by
    rw [summed_cons, travelled, summed_nonneg (b :: l) fun c hc => h c (List.mem_cons_of_mem _ hc),
      abs_nonneg_eq (h a (by simp)), abs_nonneg_eq (h b (by simp))]

theorem distance_neg {a b : Rat} (ha : a ≤ 0) (hb : b ≤ 0) : distance (abs a) (abs b) = distance a b := by
  unfold distance abs
  grind

theorem distance_pos {a b : Rat} (ha : 0 ≤ a) (hb : 0 ≤ b) : distance (abs a) (abs b) = distance a b := by
  unfold distance abs
  grind

theorem distance_le (a b : Rat) : distance (abs a) (abs b) ≤ distance a b := by
  unfold distance abs
  grind

theorem distance_lt {a b : Rat} (h : (a < 0 ∧ 0 < b) ∨ (0 < a ∧ b < 0)) : distance (abs a) (abs b) < distance a b := by
  unfold distance abs
  grind

theorem summed_le : ∀ l : List Rat, summed l ≤ travelled l
  | [] => Rat.le_refl
  | [_] => Rat.le_refl
  | a :: b :: l => by
    rw [summed_cons, travelled]
    have h1 := summed_le (b :: l)
    have h2 := distance_le a b
    grind

theorem summed_lt : ∀ l : List Rat, Crosses l → summed l < travelled l
  | [], ⟨i, a, b, h, _, _⟩ => by simp at h
  | [c], ⟨i, a, b, _, h, _⟩ => by simp at h
  | a :: b :: l, ⟨i, x, y, hx, hy, hc⟩ => by
    rw [summed_cons, travelled]
    cases i with
    | zero =>
      simp only [List.getElem?_cons_zero, Option.some.injEq, Nat.zero_add, List.getElem?_cons_succ] at hx hy
      subst hx
      subst hy
      have h1 := summed_le (b :: l)
      have h2 := distance_lt hc
      grind
    | succ i =>
      simp only [List.getElem?_cons_succ] at hx hy
      have h1 := summed_lt (b :: l) ⟨i, x, y, hx, by simpa using hy, hc⟩
      have h2 := distance_le a b
      grind

theorem summed_eq : ∀ l : List Rat, ¬ Crosses l → summed l = travelled l
  | [], _ => rfl
  | [_], _ => rfl
  | a :: b :: l, h => by
    rw [summed_cons, travelled, summed_eq (b :: l)]
    · have hn : ¬ ((a < 0 ∧ 0 < b) ∨ (0 < a ∧ b < 0)) := fun hc => h ⟨0, a, b, rfl, rfl, hc⟩
      congr 1
      unfold distance abs
      grind
    · rintro ⟨i, x, y, hx, hy, hc⟩
      exact h ⟨i + 1, x, y, by simpa using hx, by simpa using hy, hc⟩

theorem resolution_free (l : List Rat) (h : 2 ≤ l.length) :
    resolution ⟨l, none⟩ = .value (summed (l.take limit) / ((min limit l.length - 1 : Nat) : Rat)) := by
  unfold resolution
  simp only
  rw [if_neg (by omega)]
  have hl : ((diff ((l.take limit).map abs)).map abs).length = min limit l.length - 1 := by
    rw [List.length_map, diff_length, List.length_map, List.length_take]
  unfold mean
  rw [if_neg (by rw [hl]; have : limit = 100 := rfl; omega), hl]
  rfl

end Ocgis.Proofs.VarResolution
