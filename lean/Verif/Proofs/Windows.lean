import Verif.Spec.Series
/-!
# Lemmas
-/
namespace Ocgis.Props
open Ocgis.Series Ocgis.Spec

theorem validWindows_from (n shift : Nat) : ∀ fuel origin, shift ≤ origin → 0 < fuel → n < origin + shift + fuel →
    validWindows n shift fuel origin = some ((List.range' origin (n - shift - origin)).map fun o => (o, o - shift, o + shift + 1)) := by
  intro fuel
  induction fuel with
  | zero => intro origin ho h0 hf; omega
  | succ fuel ih =>
    intro origin ho _ hf
    rw [validWindows, if_neg (by omega)]
    by_cases h : origin + shift + 1 > n
    · rw [if_pos h, show n - shift - origin = 0 by omega]
      rfl
    · rw [if_neg h, ih (origin + 1) (by omega) (by omega) (by omega), show n - shift - origin = (n - shift - (origin + 1)) + 1 by omega,
        List.range'_succ]
      rfl

theorem validWindows_eq (n shift : Nat) : ∀ fuel origin, origin ≤ shift → n + shift < origin + fuel + shift → shift - origin < fuel → n < fuel + origin →
    validWindows n shift fuel origin = some ((List.range' shift (n - shift - shift)).map fun o => (o, o - shift, o + shift + 1)) := by
  intro fuel
  induction fuel with
  | zero => intro origin ho h0 hf; omega
  | succ fuel ih =>
    intro origin ho h1 h2 h3
    by_cases h : origin < shift
    · rw [validWindows, if_pos h]
      exact ih (origin + 1) (by omega) (by omega) (by omega) (by omega)
    · have : origin = shift := by omega
      subst this
      exact validWindows_from n origin (fuel + 1) origin (by omega) (by omega) (by omega)

theorem sameWindows_eq (n shift : Nat) : ∀ fuel origin, origin + fuel = n → 0 < fuel →
    sameWindows n shift fuel origin = some ((List.range' origin fuel).map fun o => (o, o - shift, o + shift + 1)) := by
  intro fuel
  induction fuel with
  | zero => intro origin _ h; omega
  | succ fuel ih =>
    intro origin ho _
    rw [sameWindows]
    by_cases h : origin + 1 = n
    · have : fuel = 0 := by omega
      subst this
      rw [if_pos h]; rfl
    · rw [if_neg h, ih (origin + 1) (by omega) (by omega), List.range'_succ]
      rfl

theorem fillWindows_get {α : Type _} (op : List (Cell α) → Cell α) (values : List (Cell α)) (st sp : Nat → Nat) :
    ∀ (os : List Nat) (fill : List (Cell α)),
    (fillWindows op values fill (os.map fun o => (o, st o, sp o))).length = fill.length ∧
    ∀ i, i < fill.length → (fillWindows op values fill (os.map fun o => (o, st o, sp o)))[i]? =
      if i ∈ os then some (op (stretch values (st i) (sp i))) else fill[i]? := by
  intro os
  induction os with
  | nil => intro fill; exact ⟨rfl, fun i _ => by simp [fillWindows]⟩
  | cons o os ih =>
    intro fill
    obtain ⟨h1, h2⟩ := ih (fill.set o (op ((values.drop (st o)).take (sp o - st o))))
    simp only [List.map_cons, fillWindows]
    refine ⟨by rw [h1]; simp, ?_⟩
    intro i hi
    rw [h2 i (by simpa using hi)]
    by_cases him : i ∈ os
    · simp [him]
    · by_cases hio : i = o
      · subst hio
        simp [him, hi, stretch]
      · rw [if_neg him, if_neg (by simp [him, hio]), List.getElem?_set]
        simp [Ne.symm hio]

end Ocgis.Props
