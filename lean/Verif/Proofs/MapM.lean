import Verif.Py

/-! `mapM` in `Res`. -/

namespace Ocgis

theorem resMapM_cons {β γ : Type _} (f : β → Res γ) (a : β) (l : List β) :
    (a :: l).mapM f = match f a with
      | .error e => .error e
      | .ok b => match l.mapM f with
        | .error e => .error e
        | .ok r => .ok (b :: r) := by
  rw [List.mapM_cons]
  cases f a with
  | error e => rfl
  | ok b => cases l.mapM f <;> rfl

theorem resMapM_ok_iff {β γ : Type _} (f : β → Res γ) (l : List β) (r : List γ) :
    l.mapM f = .ok r ↔ l.length = r.length ∧ ∀ (i : Nat) a b, l[i]? = some a → r[i]? = some b → f a = .ok b := by
  induction l generalizing r with
  | nil =>
    constructor
    · intro h; injection h with h; subst h; simp
    · rintro ⟨h, -⟩
      cases r with
      | nil => rfl
      | cons => simp at h
  | cons a l ih =>
    rw [resMapM_cons]
    constructor
    · intro h
      cases hf : f a with
      | error e => rw [hf] at h; cases h
      | ok b =>
        cases hm : l.mapM f with
        | error e => rw [hf, hm] at h; cases h
        | ok r' =>
          rw [hf, hm] at h
          injection h with h
          subst h
          obtain ⟨h1, h2⟩ := (ih r').1 hm
          refine ⟨by simp [h1], ?_⟩
          intro i x y hx hy
          cases i with
          | zero => simp at hx hy; subst hx hy; exact hf
          | succ i => exact h2 i x y (by simpa using hx) (by simpa using hy)
    · rintro ⟨h1, h2⟩
      cases r with
      | nil => simp at h1
      | cons b r =>
        rw [h2 0 a b rfl rfl, (ih r).2 ⟨by simpa using h1, fun i x y hx hy => h2 (i + 1) x y (by simpa using hx) (by simpa using hy)⟩]

theorem resMapM_error_iff {β γ : Type _} (f : β → Res γ) (l : List β) (e : PyErr) :
    l.mapM f = .error e ↔ ∃ (i : Nat) (a : β), l[i]? = some a ∧ f a = .error e
      ∧ ∀ (j : Nat), j < i → ∃ x y, l[j]? = some x ∧ f x = .ok y := by
  induction l with
  | nil => constructor
           · intro h; cases h
           · rintro ⟨i, a, h, -⟩; simp at h
  | cons a l ih =>
    rw [resMapM_cons]
    constructor
    · intro h
      cases hf : f a with
      | error e' =>
        rw [hf] at h
        injection h with h
        subst h
        exact ⟨0, a, rfl, hf, fun j hj => absurd hj (by omega)⟩
      | ok b =>
        cases hm : l.mapM f with
        | ok r => rw [hf, hm] at h; cases h
        | error e' =>
          rw [hf, hm] at h
          injection h with h
          subst h
          obtain ⟨i, x, h1, h2, h3⟩ := ih.1 hm
          refine ⟨i + 1, x, by simpa using h1, h2, ?_⟩
          intro j hj
          cases j with
          | zero => exact ⟨a, b, rfl, hf⟩
          | succ j =>
            obtain ⟨x, y, h4, h5⟩ := h3 j (by omega)
            exact ⟨x, y, by simpa using h4, h5⟩
    · rintro ⟨i, x, h1, h2, h3⟩
      cases i with
      | zero => simp at h1; subst h1; rw [h2]
      | succ i =>
        obtain ⟨x0, y0, h4, h5⟩ := h3 0 (by omega)
        simp at h4
        subst h4
        rw [h5, ih.2 ⟨i, x, by simpa using h1, h2, fun j hj => ?_⟩]
        obtain ⟨x, y, h6, h7⟩ := h3 (j + 1) (by omega)
        exact ⟨x, y, by simpa using h6, h7⟩

end Ocgis
