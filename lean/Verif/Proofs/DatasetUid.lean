import Verif.Spec.DatasetUid
/-!
# Lemmas on identifiers of datasets
-/
namespace Ocgis.Proofs.DatasetUid
open Spec Ocgis.DatasetUid

theorem walk_length (xs : List Item) : ∀ (u : Uids) (pos : Nat), (walk u pos xs).1.length = xs.length := by
  induction xs with
  | nil => intros; rfl
  | cons x xs ih => intro u pos; simp [walk, ih]

/-- A step leaves identifiers that are there. -/
theorem step_keeps (u : Uids) (pos : Nat) (s : Source) {o : Obj} {n : Int} (h : u o = some n) : (step u pos s).2 o = some n := by
  unfold step
  cases hg : given u s with
  | some i => exact h
  | none =>
    match s with
    | .object (.request p) =>
      by_cases hop : o = .request p
      · subst hop
        simp only [given] at hg
        rw [hg] at h
        cases h
      · simp [mark, hop, h]
    | .object (.field p) => exact h
    | .options i => exact h

theorem walk_keeps (xs : List Item) : ∀ (u : Uids) (pos : Nat) {o : Obj} {n : Int}, u o = some n → (walk u pos xs).2 o = some n := by
  induction xs with
  | nil => intro u pos o n h; exact h
  | cons x xs ih =>
    intro u pos o n h
    exact ih _ _ (step_keeps u pos x.source h)

/-- A step changes only the request dataset it is at. -/
theorem step_other (u : Uids) (pos : Nat) (s : Source) (o : Obj) (h : ∀ k, o = .request k → s ≠ .object (.request k)) :
    (step u pos s).2 o = u o := by
  unfold step
  cases hg : given u s with
  | some i => rfl
  | none =>
    match s with
    | .object (.request p) =>
      have : o ≠ .request p := by rintro rfl; exact h p rfl rfl
      simp [mark, this]
    | .object (.field p) => rfl
    | .options i => rfl

theorem walk_other (xs : List Item) : ∀ (u : Uids) (pos : Nat) (o : Obj), (∀ k, o = .request k → ∀ x ∈ xs, x.source ≠ .object (.request k)) →
    (walk u pos xs).2 o = u o := by
  induction xs with
  | nil => intros; rfl
  | cons x xs ih =>
    intro u pos o h
    simp only [walk]
    rw [ih _ _ _ fun k hk y hy => h k hk y (List.mem_cons_of_mem _ hy), step_other _ _ _ _ fun k hk => h k hk x (List.mem_cons_self ..)]

/-- The identifier a step gives to a request dataset is what it has then. -/
theorem step_request (u : Uids) (pos : Nat) (k : Nat) :
    (step u pos (.object (.request k))).2 (.request k) = some (step u pos (.object (.request k))).1 := by
  unfold step
  cases hg : given u (.object (.request k)) with
  | some i => exact hg
  | none => simp [mark]

/-- The position of a dataset gives its step: what the objects are before it. -/
theorem walk_at (xs : List Item) : ∀ (u : Uids) (pos i : Nat) (x : Item), xs[i]? = some x →
    ∃ v : Uids, (walk u pos xs).1[i]? = some (step v (pos + i) x.source).1 ∧
      (∀ o n, u o = some n → v o = some n) ∧
      (∀ o, (∀ k, o = .request k → ∀ (j : Nat) (y : Item), j < i → xs[j]? = some y → y.source ≠ .object (.request k)) → v o = u o) ∧
      (∀ (o : Obj) (n : Int), (step v (pos + i) x.source).2 o = some n → (walk u pos xs).2 o = some n) ∧
      (∀ (j : Nat) (y : Item) (k : Nat) (m : Int), j < i → xs[j]? = some y → y.source = .object (.request k) →
        (walk u pos xs).1[j]? = some m → v (.request k) = some m) := by
  induction xs with
  | nil => intro u pos i x h; simp at h
  | cons a xs ih =>
    intro u pos i x h
    cases i with
    | zero =>
      simp only [List.getElem?_cons_zero, Option.some.injEq] at h
      subst h
      refine ⟨u, by simp [walk], fun _ _ h => h, fun _ _ => rfl, ?_, ?_⟩
      · intro o n hn
        simp only [walk]
        exact walk_keeps _ _ _ hn
      · intro j y o m hj; omega
    | succ i =>
      simp only [List.getElem?_cons_succ] at h
      obtain ⟨v, h1, h2, h3, h4, h5⟩ := ih (step u pos a.source).2 (pos + 1) i x h
      rw [show pos + 1 + i = pos + (i + 1) by omega] at h1 h4
      refine ⟨v, by simpa [walk] using h1, ?_, ?_, ?_, ?_⟩
      · intro o n hn
        exact h2 o n (step_keeps u pos a.source hn)
      · intro o ho
        rw [h3 o fun k hk j y hj hy => ho k hk (j + 1) y (by omega) (by simpa using hy)]
        exact step_other _ _ _ _ fun k hk => ho k hk 0 a (by omega) rfl
      · intro o n hn
        simp only [walk]
        exact h4 o n hn
      · intro j y k m hj hy hs hm
        cases j with
        | zero =>
          simp only [List.getElem?_cons_zero, Option.some.injEq] at hy
          subst hy
          simp only [walk, List.getElem?_cons_zero, Option.some.injEq] at hm
          subst hm
          apply h2
          rw [hs]
          exact step_request u pos k
        | succ j =>
          simp only [List.getElem?_cons_succ] at hy
          simp only [walk, List.getElem?_cons_succ] at hm
          exact h5 j y k m (by omega) hy hs hm

/-- A second time nothing changes: the identifiers are those the objects have or the positions. -/
theorem walk_again (xs : List Item) : ∀ (u v : Uids) (pos : Nat), (∀ o n, (walk u pos xs).2 o = some n → v o = some n) →
    (∀ k, v (.field k) = u (.field k)) → walk v pos xs = ((walk u pos xs).1, v) := by
  induction xs with
  | nil => intros; rfl
  | cons x xs ih =>
    intro u v pos h hf
    have hv : ∀ o n, (walk (step u pos x.source).2 (pos + 1) xs).2 o = some n → v o = some n := fun o n hn => h o n hn
    have hstep : step v pos x.source = ((step u pos x.source).1, v) := by
      match hs : x.source with
      | .object (.request o) =>
        have e : v (.request o) = some (step u pos (.object (.request o))).1 := by
          apply hv
          rw [hs]
          exact walk_keeps _ _ _ (step_request u pos o)
        simp only [step, given, e]
      | .object (.field o) =>
        have e := hf o
        simp only [step, given, e, mark]
        cases u (.field o) <;> rfl
      | .options i =>
        simp only [step, given, mark]
        cases i <;> rfl
    simp only [walk, hstep]
    rw [ih (step u pos x.source).2 v (pos + 1) hv ?_]
    intro k
    rw [hf k, step_other _ _ _ _ (by intro k' h; cases h)]

end Ocgis.Proofs.DatasetUid
