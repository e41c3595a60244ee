import Verif.Spec.CrsCreate
/-!
# Lemmas on making coordinate systems
-/
namespace Ocgis.Proofs.CrsCreate
open Spec Ocgis.CrsCreate

theorem get_iff (k : String) (v : Val) : ∀ d : Def, get? k d = some v ↔ DefHas d k v
  | [] => by
    constructor
    · intro h; cases h
    · rintro ⟨a, b, h, -⟩
      cases a <;> cases h
  | (k', v') :: d => by
    unfold get?
    rw [List.find?_cons]
    by_cases hk : k' = k
    · subst hk
      simp only [BEq.rfl, Option.map_some, Option.some.injEq]
      constructor
      · rintro rfl
        exact ⟨[], d, rfl, by simp⟩
      · rintro ⟨a, b, h, ha⟩
        cases a with
        | nil => cases h; rfl
        | cons e a =>
          cases h
          exact absurd rfl (ha (k', v') (List.mem_cons_self ..))
    · have hb : (k' == k) = false := by simpa using hk
      simp only [hb]
      have ih := get_iff k v d
      unfold get? at ih
      rw [ih]
      constructor
      · rintro ⟨a, b, rfl, ha⟩
        refine ⟨(k', v') :: a, b, rfl, ?_⟩
        intro e he
        rcases List.mem_cons.1 he with rfl | he
        · exact hk
        · exact ha e he
      · rintro ⟨a, b, h, ha⟩
        cases a with
        | nil => cases h; exact absurd rfl hk
        | cons e a =>
          cases h
          exact ⟨a, b, rfl, fun e he => ha e (List.mem_cons_of_mem _ he)⟩

theorem get_none (k : String) (d : Def) : get? k d = none ↔ DefLacks d k := by
  unfold get? DefLacks
  rw [Option.map_eq_none_iff, List.find?_eq_none]
  constructor
  · intro h e he hk
    exact h e he (by simpa using hk)
  · intro h e he hk
    exact h e he (by simpa using hk)

theorem noShift_iff (d : Def) : unshifted d = true ↔ NoShift d := by
  unfold NoShift unshifted
  rw [← get_iff, ← get_none]
  cases get? "towgs84" d with
  | none => simp
  | some t => simp

theorem sphere_iff (d : Def) : fuzzy [("a", .num 6370997), ("b", .num 6370997), ("proj", longlat)] d = true ↔ OnSphere d := by
  unfold fuzzy OnSphere
  rw [Bool.and_eq_true, noShift_iff]
  simp only [List.all_cons, List.all_nil, Bool.and_true, Bool.and_eq_true, beq_iff_eq, get_iff]
  constructor
  · rintro ⟨⟨h1, h2, h3⟩, h4⟩; exact ⟨h3, h1, h2, h4⟩
  · rintro ⟨h3, h1, h2, h4⟩; exact ⟨⟨h1, h2, h3⟩, h4⟩

theorem wgs_iff (d : Def) : fuzzy [("datum", datum84), ("proj", longlat)] d = true ↔ OnWgs84 d := by
  unfold fuzzy OnWgs84
  rw [Bool.and_eq_true, noShift_iff]
  simp only [List.all_cons, List.all_nil, Bool.and_true, Bool.and_eq_true, beq_iff_eq, get_iff]
  constructor
  · rintro ⟨⟨h1, h2⟩, h4⟩; exact ⟨h2, h1, h4⟩
  · rintro ⟨h2, h1, h4⟩; exact ⟨⟨h1, h2⟩, h4⟩

theorem initCheck_lacks (P : Proj) (d : Def) (c : Option Int) (h : DefLacks d "init") : initCheck P d c = .ok (some d, c) := by
  unfold initCheck
  rw [(get_none "init" d).2 h]
  rfl

theorem finish_ok (P : Proj) (k : Kind) (n : String) (c : Option Int) (d : Def) (h : P.norm d ≠ []) :
    finish P k n c d = .ok ⟨k, n, c, P.norm d⟩ := by
  unfold finish
  simp only
  rw [if_neg h]

theorem finish_empty (P : Proj) (k : Kind) (n : String) (c : Option Int) (d : Def) (h : P.norm d = []) :
    finish P k n c d = .error .valueError := by
  unfold finish
  simp only
  rw [if_pos h]

theorem make_start (P : Proj) (v : Option Def) (p : Option String) (c : Option Int) (n : String) (h : c ≠ some 4326) :
    make P v p c n = ((match v with
      | some d => initCheck P d c
      | none => .ok (none, c)) : Res (Option Def × Option Int)).bind fun vc =>
        (choose P vc.1 p vc.2).bind fun d => finish P .plain n c d := by
  unfold make
  simp only
  rw [if_neg h]
  rfl

theorem second_code (n : List Char) (h : ':' ∉ n) : second ('e' :: 'p' :: 's' :: 'g' :: ':' :: n) = some n := by
  have ht : n.takeWhile (· ≠ ':') = n := by
    induction n with
    | nil => rfl
    | cons c n ih =>
      simp only [List.mem_cons, not_or] at h
      rw [List.takeWhile_cons]
      have : decide (c ≠ ':') = true := by simpa using Ne.symm h.1
      rw [this]
      simp only [if_true]
      rw [ih h.2]
  unfold second
  have hd : List.dropWhile (· ≠ ':') ('e' :: 'p' :: 's' :: 'g' :: ':' :: n) = ':' :: n := by
    simp
  rw [hd]
  simp only
  rw [ht]

end Ocgis.Proofs.CrsCreate
