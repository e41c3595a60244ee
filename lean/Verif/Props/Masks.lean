import Verif.Proofs.Masks
/-!
# C33: updating masks; C34: cascading masks
-/
namespace Ocgis.Props
open Ocgis.Masks Ocgis.Spec
open Ocgis.Array (Arr)

/-! ## C33 -/

/-- C33: an update masks exactly the union. -/
theorem C33_union (v v' : MVar) (m : Option (Arr Bool)) (h : setMask v m true = .ok v') (idx : List Nat) :
    v'.masked idx = true ↔ v.masked idx = true ∨ maskHas m idx := by
  unfold setMask at h
  split at h
  · injection h with h
    subst h
    simp only [if_true, MVar.masked, orMask, maskHas]
    cases v.mask <;> cases m <;> simp [or_comm]
  · cases h

/-- C33: an update is refused exactly if its mask has another shape. -/
theorem C33_refused (v : MVar) (m : Option (Arr Bool)) (u : Bool) :
    (∃ v', setMask v m u = .ok v') ↔ ∀ a, m = some a → a.shape = v.shape := by
  unfold setMask
  cases m with
  | none => simp [shapeOk]
  | some a =>
    simp only [shapeOk, decide_eq_true_eq, Option.some.injEq]
    by_cases hs : a.shape = v.shape <;> simp [hs]

/-- C33: after any history of updates, loads and reads of the mask, masked is exactly what was masked before, what any of the
updates masks, and, if the values have been loaded, what is masked in the source. -/
theorem C33_history (s s' : Sourced) (ops : List MaskOp) (h : s.run ops = .ok s') (hfresh : s.loaded = false) (idx : List Nat) :
    s'.var.masked idx = true ↔
      s.var.masked idx = true ∨ (∃ m ∈ asked ops, maskHas m idx) ∨
        ((∃ o ∈ ops, ∀ m, o ≠ .update m) ∧ maskHas s.source idx) := by
  have loadSpec : ∀ (s s' : Sourced), s.load = .ok s' → s'.source = s.source ∧ s'.loaded = true ∧
      (s'.var.masked idx = true ↔ s.var.masked idx = true ∨ (s.loaded = false ∧ maskHas s.source idx)) := by
    intro s s' h
    unfold Sourced.load at h
    split at h
    · rename_i hl
      injection h with h; subst h
      exact ⟨rfl, hl, by simp [hl]⟩
    · rename_i hl
      split at h
      · rename_i hs
        injection h with h; subst h
        exact ⟨rfl, rfl, by simp [hs, maskHas]⟩
      · rename_i m hs
        cases hm : setMask s.var (some m) true with
        | error e => rw [hm] at h; cases h
        | ok v =>
          rw [hm] at h
          injection h with h; subst h
          refine ⟨rfl, rfl, ?_⟩
          rw [C33_union s.var v (some m) hm idx, hs]
          simp [hl]
  have getSpec : ∀ (s s' : Sourced) (r), s.getMask = .ok (s', r) → s'.source = s.source ∧ s'.loaded = true ∧
      (s'.var.masked idx = true ↔ s.var.masked idx = true ∨ (s.loaded = false ∧ maskHas s.source idx)) := by
    intro s s' r h
    unfold Sourced.getMask at h
    cases hl : s.load with
    | error e => rw [hl] at h; cases h
    | ok s1 =>
      rw [hl] at h
      obtain ⟨h1, h2, h3⟩ := loadSpec s s1 hl
      injection h with h; injection h with ha hb
      subst ha
      refine ⟨h1, h2, ?_⟩
      rw [← h3]
      simp only [MVar.masked]
      cases s1.var.mask <;> simp
  -- the general statement, for any state
  have gen : ∀ (ops : List MaskOp) (s s' : Sourced), s.run ops = .ok s' →
      (s'.var.masked idx = true ↔ s.var.masked idx = true ∨ (∃ m ∈ asked ops, maskHas m idx) ∨
        ((∃ o ∈ ops, ∀ m, o ≠ .update m) ∧ s.loaded = false ∧ maskHas s.source idx)) := by
    intro ops
    induction ops with
    | nil =>
      intro s s' h
      injection h with h; subst h
      simp [asked]
    | cons o os ih =>
      intro s s' h
      rw [Sourced.run] at h
      cases hst : s.step o with
      | error e => rw [hst] at h; cases h
      | ok s1 =>
        rw [hst] at h
        have hrest := ih s1 s' h
        rw [hrest]
        cases o with
        | update m =>
          simp only [Sourced.step] at hst
          cases hm : setMask s.var m true with
          | error e => rw [hm] at hst; cases hst
          | ok v =>
            rw [hm] at hst
            injection hst with hst; subst hst
            simp only [asked, List.mem_cons, exists_eq_or_imp, C33_union s.var v m hm idx]
            simp only [ne_eq, MaskOp.update.injEq, forall_eq', false_or, or_assoc]
        | load =>
          obtain ⟨h1, h2, h3⟩ := loadSpec s s1 hst
          rw [h3, h2]
          simp only [asked]
          simp
          grind
        | getMask =>
          simp only [Sourced.step] at hst
          cases hg : s.getMask with
          | error e => rw [hg] at hst; cases hst
          | ok r =>
            rw [hg] at hst
            injection hst with hst; subst hst
            obtain ⟨h1, h2, h3⟩ := getSpec s r.1 r.2 hg
            rw [h3, h2]
            simp only [asked]
            simp
            grind
  have := gen ops s s' h
  rw [this]
  simp [hfresh]

/-- C33: the order of the updates makes no difference. -/
theorem C33_any_order (s s1 s2 : Sourced) (ms1 ms2 : List (Option (Arr Bool))) (hp : ms1.Perm ms2) (hfresh : s.loaded = false)
    (h1 : s.run (ms1.map .update) = .ok s1) (h2 : s.run (ms2.map .update) = .ok s2) (idx : List Nat) :
    s1.var.masked idx = s2.var.masked idx := by
  rw [Bool.eq_iff_iff, C33_history s s1 _ h1 hfresh idx, C33_history s s2 _ h2 hfresh idx, asked_updates, asked_updates]
  have hx : ∀ m, m ∈ ms1 ↔ m ∈ ms2 := fun m => hp.mem_iff
  simp [hx]

example : ∃ v', setMask { names := ["y", "x"], shape := [2, 2], mask := some fun i => i == [0, 0] }
    (some ⟨[2, 2], fun i => i == [1, 0]⟩) true = .ok v' ∧
    (v'.masked [0, 0], v'.masked [0, 1], v'.masked [1, 0], v'.masked [1, 1]) = (true, false, true, false) := ⟨_, rfl, by decide⟩

/-! ## C34 -/

/-- C34 (the variables have different dimensions, or existing masks are updated): cascading a mask from one variable to another
masks exactly the elements whose coordinates along the shared dimensions are those of a masked element of the source, in
addition to those already masked; whatever the order of the dimensions, and whichever others there are. -/
theorem C34_cascade_partial (source target : MVar) (update : Bool) (ms : List Nat → Bool)
    (hm : source.mask = some ms) (hd : source.names ≠ target.names ∨ update = true)
    (hsn : source.names.Nodup) (htn : target.names.Nodup) (hsl : source.names.length = source.shape.length)
    (htl : target.names.length = target.shape.length)
    (hsize : SameSizes source.names target.names source.shape target.shape) :
    ∃ v, setMaskByVariable source target update = .ok v ∧ v.shape = target.shape ∧ v.names = target.names ∧
      ∀ idx, IdxIn target.shape idx → (v.masked idx = true ↔ target.masked idx = true ∨
        ∃ s, IdxIn source.shape s ∧ ms s = true ∧ SameCoordinates source.names target.names s idx) := by
  by_cases hn : source.names = target.names
  · have hu : update = true := hd.resolve_left (by simpa using hn)
    subst hu
    have hshape : source.shape = target.shape := by
      apply List.ext_getElem?
      intro i
      by_cases hi : i < target.names.length
      · exact hsize i i _ (by rw [hn]; exact List.getElem?_eq_getElem hi) (List.getElem?_eq_getElem hi)
      · rw [hn] at hsl
        rw [List.getElem?_eq_none (by omega), List.getElem?_eq_none (by omega)]
    obtain ⟨v, hv⟩ := (C33_refused target (some ⟨source.shape, ms⟩) true).2 (by intro a ha; cases ha; exact hshape)
    refine ⟨v, by unfold setMaskByVariable; rw [hm]; simp only [hn, if_true]; exact hv, (setMask_shape hv).2.1, (setMask_shape hv).1, ?_⟩
    intro idx hidx
    rw [C33_union target v _ hv idx]
    refine or_congr Iff.rfl ?_
    constructor
    · rintro ⟨a, ha, h⟩
      cases ha
      refine ⟨idx, by rw [hshape]; exact hidx, h, ?_⟩
      intro i j n h1 h2
      rw [hn] at h1
      have : i = j := by
        obtain ⟨l1, e1⟩ := List.getElem?_eq_some_iff.1 h1
        exact (List.getElem?_inj l1 htn).1 (by rw [h1, h2])
      rw [this]
    · rintro ⟨s, hs, h, hsame⟩
      have : s = idx := by
        apply List.ext_getElem?
        intro i
        by_cases hi : i < target.names.length
        · exact hsame i i _ (by rw [hn]; exact List.getElem?_eq_getElem hi) (List.getElem?_eq_getElem hi)
        · have e1 := hs.1
          have e2 := hidx.1
          rw [hshape] at e1
          rw [List.getElem?_eq_none (by omega), List.getElem?_eq_none (by omega)]
      subst this
      exact ⟨_, rfl, h⟩
  · have hin : ∀ s ∈ allIdx source.shape, templateInside (sliceMap source.names target.names) s target.shape = true := by
      intro s hs
      have hs := (mem_allIdx _ _).1 hs
      simp only [templateInside, List.all_eq_true, decide_eq_true_eq]
      intro m hmm
      obtain ⟨n, h1, h2⟩ := (mem_sliceMap _ _ hsn htn m).1 hmm
      have hlt := (List.getElem?_eq_some_iff.1 h1).1
      have := hs.2 m.1 (by omega)
      have hsz := hsize m.1 m.2 n h1 h2
      have e1 : source.shape.getD m.1 0 = target.shape.getD m.2 0 := by
        simp only [List.getD_eq_getElem?_getD, hsz]
      omega
    obtain ⟨t, h1, h2⟩ := cascadeLoop_ok (sliceMap source.names target.names) target.shape ms (allIdx source.shape) target.masked hin
    obtain ⟨v, hv⟩ := (C33_refused target (some ⟨target.shape, t⟩) update).2 (by intro a ha; cases ha; rfl)
    refine ⟨v, ?_, (setMask_shape hv).2.1, (setMask_shape hv).1, ?_⟩
    · unfold setMaskByVariable
      rw [hm]
      simp only [if_neg hn]
      rw [h1]
      exact hv
    · intro idx hidx
      have hvt : v.masked idx = true ↔ t idx = true := by
        cases update with
        | true =>
          rw [C33_union target v _ hv idx]
          simp only [maskHas]
          rw [h2]
          constructor
          · rintro (h | ⟨a, ha, h⟩)
            · exact .inl h
            · cases ha; exact (h2 idx).1 h
          · rintro (h | h)
            · exact .inl h
            · exact .inr ⟨_, rfl, (h2 idx).2 (.inr h)⟩
        | false =>
          unfold setMask at hv
          simp only [shapeOk, decide_true, if_true, Bool.false_eq_true, if_false] at hv
          injection hv with hv
          subst hv
          rfl
      rw [hvt, h2]
      refine or_congr Iff.rfl ?_
      constructor
      · rintro ⟨s, hs, e1, e2⟩
        exact ⟨s, (mem_allIdx _ _).1 hs, e1, (onTemplate_iff _ _ hsn htn s idx).1 e2⟩
      · rintro ⟨s, hs, e1, e2⟩
        exact ⟨s, (mem_allIdx _ _).2 hs, e1, (onTemplate_iff _ _ hsn htn s idx).2 e2⟩

/-- A spatial mask over (y, x) cascaded to a variable over (x, time, y). -/
def demoSource : MVar := { name := "mask", names := ["y", "x"], shape := [2, 3], mask := some fun i => i == [1, 2] }
def demoTarget : MVar := { name := "tas", names := ["x", "time", "y"], shape := [3, 2, 2], mask := some fun i => i == [0, 0, 0] }

example : SameSizes demoSource.names demoTarget.names demoSource.shape demoTarget.shape := by
  intro i j n h1 h2
  match i, j with
  | 0, 0 => simp [demoSource, demoTarget] at h1 h2; subst h1; simp at h2
  | 0, 1 => simp [demoSource, demoTarget] at h1 h2; subst h1; simp at h2
  | 0, 2 => simp [demoSource, demoTarget]
  | 1, 0 => simp [demoSource, demoTarget]
  | 1, 1 => simp [demoSource, demoTarget] at h1 h2; subst h1; simp at h2
  | 1, 2 => simp [demoSource, demoTarget] at h1 h2; subst h1; simp at h2
  | 0, j + 3 => simp [demoTarget] at h2
  | 1, j + 3 => simp [demoTarget] at h2
  | i + 2, j => simp [demoSource] at h1

example : ∃ v, setMaskByVariable demoSource demoTarget false = .ok v ∧
    (v.masked [2, 0, 1], v.masked [2, 1, 1], v.masked [0, 0, 0], v.masked [1, 0, 1]) = (true, true, true, false) :=
  ⟨_, rfl, by decide⟩

/-- C34 is false without update for a variable over the same dimensions in the same order: what was masked there is no longer. -/
theorem C34_same_dimensions_counterexample : ∃ (source target v : MVar) (idx : List Nat),
    setMaskByVariable source target false = .ok v ∧ target.masked idx = true ∧ v.masked idx = false :=
  ⟨{ names := ["x"], shape := [2], mask := some fun i => i == [0] }, { names := ["x"], shape := [2], mask := some fun i => i == [1] },
    _, [1], rfl, by decide, by decide⟩

/-- C34: a source without a mask changes nothing. -/
theorem C34_no_mask (source target : MVar) (update : Bool) (h : source.mask = none) :
    setMaskByVariable source target update = .ok target := by
  unfold setMaskByVariable; rw [h]

/-- C34: cascading to a collection treats each variable on its own; the variable itself, excluded variables and those without a
common dimension are left alone. -/
theorem C34_collection (var : MVar) (exclude : List String) (update : Bool) (vs vs' : List MVar)
    (h : cascade var exclude update vs = .ok vs') :
    vs'.length = vs.length ∧ ∀ (i : Nat) v v', vs[i]? = some v → vs'[i]? = some v' →
      ((v.name ∈ exclude ∨ v.name = var.name ∨ ∀ n ∈ var.names, n ∉ v.names) → v' = v) ∧
      (¬(v.name ∈ exclude ∨ v.name = var.name ∨ ∀ n ∈ var.names, n ∉ v.names) →
        setMaskByVariable var v update = .ok v') := by
  induction vs generalizing vs' with
  | nil => injection h with h; subst h; simp
  | cons v vs ih =>
    rw [cascade] at h
    split at h
    · cases h
    · rename_i v1 hv1
      unfold cascadeOne at hv1
      split at h
      · cases h
      · rename_i vs1 hvs
        injection h with h
        subst h
        obtain ⟨hl, hrest⟩ := ih vs1 hvs
        refine ⟨by simp [hl], ?_⟩
        intro i w w' hw hw'
        cases i with
        | succ i => exact hrest i w w' (by simpa using hw) (by simpa using hw')
        | zero =>
          simp only [List.getElem?_cons_zero, Option.some.injEq] at hw hw'
          subst hw hw'
          have hno : sliceMap var.names v.names = [] ↔ ∀ n ∈ var.names, n ∉ v.names := by
            simp [sliceMap]
          have hcond : (v.name ∈ exclude ∨ var.name = v.name ∨ v.names = [] ∨ sliceMap var.names v.names = []) ↔
              (v.name ∈ exclude ∨ v.name = var.name ∨ ∀ n ∈ var.names, n ∉ v.names) := by
            rw [hno]
            constructor
            · rintro (h | h | h | h)
              · exact .inl h
              · exact .inr (.inl h.symm)
              · exact .inr (.inr (by rw [h]; simp))
              · exact .inr (.inr h)
            · rintro (h | h | h)
              · exact .inl h
              · exact .inr (.inl h.symm)
              · exact .inr (.inr (.inr h))
          refine ⟨?_, ?_⟩
          · intro hc
            rw [if_pos (hcond.2 hc)] at hv1
            injection hv1 with hv1; exact hv1.symm
          · intro hc
            rw [if_neg (fun h => hc (hcond.1 h))] at hv1
            exact hv1

/-- C34: applying the spatial mask of a region masks exactly the elements over masked cells, and those already masked. -/
theorem C34_spatial_mask (v : MVar) (spatial : Nat → Nat → Bool) (r0 c0 : Nat) (pre : List Nat) (r c : Nat)
    (hshape : v.shape.length = pre.length + 2) :
    ∃ v', spatialMask v spatial r0 c0 = .ok v' ∧ v'.shape = v.shape ∧
      (v'.masked (pre ++ [r, c]) = true ↔ spatial (r0 + r) (c0 + c) = true ∨ v.masked (pre ++ [r, c]) = true) := by
  obtain ⟨v', hv⟩ : ∃ v', spatialMask v spatial r0 c0 = .ok v' := (C33_refused v _ false).2 (by intro a ha; cases ha; rfl)
  refine ⟨v', hv, (setMask_shape hv).2.1, ?_⟩
  unfold spatialMask setMask at hv
  simp only [shapeOk, decide_true, if_true, Bool.false_eq_true, if_false] at hv
  injection hv with hv
  subst hv
  simp only [MVar.masked, Option.map_some, hshape]
  simp

example : ∃ v', spatialMask demoTarget (fun r c => r == 3 && c == 5) 2 4 = .ok v' ∧
    (v'.masked [1, 1, 1], v'.masked [0, 0, 0], v'.masked [0, 0, 1]) = (true, true, false) := ⟨_, rfl, by decide⟩

end Ocgis.Props
