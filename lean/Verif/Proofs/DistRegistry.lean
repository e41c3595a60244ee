import Verif.Spec.DistRegistry
/-!
# Lemmas on what a distribution knows
-/
namespace Ocgis.Proofs.DistRegistry
open Spec Ocgis.DistRegistry

theorem get_setKey {β : Type} (k : String) (b : β) (l : List (String × β)) (q : String) : get? q (setKey k b l) = if k = q then some b else get? q l := by
  unfold get?
  induction l with
  | nil =>
    by_cases h : k = q
    · simp [setKey, h]
    · simp [setKey, h]
  | cons e l ih =>
    obtain ⟨k', b'⟩ := e
    rw [setKey]
    by_cases hk : k' = k
    · rw [if_pos hk]
      by_cases h : k = q
      · simp [h]
      · simp [h, hk]
    · rw [if_neg hk, List.find?_cons, List.find?_cons]
      by_cases hq : k' = q
      · have : ¬ k = q := fun e => hk (hq.trans e.symm)
        simp [hq, this]
      · have hb : (k' == q) = false := by simpa using hq
        simp only [hb]
        exact ih

theorem ensure_at (s : State) (r : Nat) (p : List String) : (ensure s r p).groups r p = some (groupAt s r p) := by
  unfold ensure groupAt
  cases h : s.groups r p with
  | some g => simp [h]
  | none => simp [h]

theorem groupAt_ensure (s : State) (r : Nat) (p : List String) : groupAt (ensure s r p) r p = groupAt s r p := by
  rw [groupAt, ensure_at]
  rfl

theorem ensure_other (s : State) (r r' : Nat) (p p' : List String) (h : r' ≠ r) : (ensure s r p).groups r' p' = s.groups r' p' := by
  unfold ensure
  simp only [h, false_and, if_false]
  cases s.groups r' p' <;> rfl

theorem ensure_id (s : State) (r : Nat) (p : List String) (h : ∀ p', p' <+: p → (s.groups r p').isSome) : (ensure s r p).groups = s.groups := by
  funext r' p'
  unfold ensure
  simp only
  cases hg : s.groups r' p' with
  | some g => rfl
  | none =>
    by_cases hc : r' = r ∧ p' <+: p
    · have := h p' hc.2
      rw [← hc.1, hg] at this
      cases this
    · simp only [hc, if_false]

/-- What one rank has after adding to it: everything on the way, and the changed group. -/
def after (s : State) (p : List String) (f : Group → Group) (r : Nat) (p' : List String) : Option Group :=
  if p' = p then some (f (groupAt s r p))
  else
    match s.groups r p' with
    | some g => some g
    | none => if p' <+: p then some { dims := [], vars := [] } else none

theorem put_after (s : State) (r : Nat) (p : List String) (f : Group → Group) :
    ∀ p', ((ensure s r p).put r p (f (groupAt (ensure s r p) r p))).groups r p' = after s p f r p' := by
  intro p'
  unfold State.put after
  simp only [true_and, groupAt_ensure]
  by_cases h : p' = p
  · rw [if_pos h, if_pos h]
  · rw [if_neg h, if_neg h]
    unfold ensure
    simp only [true_and]
    rfl

theorem put_other (s : State) (r r' : Nat) (p p' : List String) (g : Group) (h : r' ≠ r) : (s.put r p g).groups r' p' = s.groups r' p' := by
  unfold State.put
  simp only [h, false_and, if_false]

theorem after_congr (s t : State) (p : List String) (f : Group → Group) (r : Nat) (h : ∀ p', s.groups r p' = t.groups r p') (p' : List String) :
    after s p f r p' = after t p f r p' := by
  unfold after groupAt
  rw [h p, h p']

/-- Adding a dimension where it is not refused. -/
theorem addDimTo_ok (d : Dim) (p : List String) (force : Bool) : ∀ (rs : List Nat) (s : State), rs.Nodup →
    (force = true ∨ ∀ r ∈ rs, LacksDim s r p d.name) →
    ∃ t, addDimTo d p force rs s = (t, none) ∧ t.ranks = s.ranks ∧
      (∀ r ∈ rs, ∀ p', t.groups r p' = after s p (fun g => { g with dims := setKey d.source d g.dims }) r p') ∧
      ∀ r, r ∉ rs → ∀ p', t.groups r p' = s.groups r p'
  | [], s, _, _ => ⟨s, rfl, rfl, by simp, fun _ _ _ => rfl⟩
  | r :: rs, s, hn, hl => by
    rw [List.nodup_cons] at hn
    have hc : ¬ ((! force && (get? d.name (groupAt (ensure s r p) r p).dims).isSome) = true) := by
      rcases hl with h | h
      · simp [h]
      · rw [groupAt_ensure]
        have : get? d.name (groupAt s r p).dims = none := by
          unfold groupAt
          cases hg : s.groups r p with
          | none => rfl
          | some g => exact h r (List.mem_cons_self ..) g hg
        simp [this]
    have hother : ∀ r', r' ≠ r → ∀ p', ((ensure s r p).put r p
        { groupAt (ensure s r p) r p with dims := setKey d.source d (groupAt (ensure s r p) r p).dims }).groups r' p' = s.groups r' p' := by
      intro r' hr p'
      rw [put_other _ _ _ _ _ _ hr, ensure_other _ _ _ _ _ hr]
    obtain ⟨t, ht, h1, h2, h3⟩ := addDimTo_ok d p force rs
      ((ensure s r p).put r p { groupAt (ensure s r p) r p with dims := setKey d.source d (groupAt (ensure s r p) r p).dims }) hn.2 (by
        rcases hl with h | h
        · exact Or.inl h
        · refine Or.inr fun r' hr' g hg => ?_
          have hne : r' ≠ r := fun e => hn.1 (e ▸ hr')
          rw [hother r' hne] at hg
          exact h r' (List.mem_cons_of_mem _ hr') g hg)
    refine ⟨t, ?_, h1, ?_, ?_⟩
    · rw [addDimTo]
      rw [if_neg hc]
      exact ht
    · intro r' hr' p'
      by_cases he : r' = r
      · subst he
        rw [h3 r' hn.1 p']
        exact put_after s r' p (fun g => { g with dims := setKey d.source d g.dims }) p'
      · have hm : r' ∈ rs := by
          rcases List.mem_cons.1 hr' with h | h
          · exact absurd h he
          · exact h
        rw [h2 r' hm p']
        exact after_congr _ _ _ _ _ (hother r' he) p'
    · intro r' hr' p'
      simp only [List.mem_cons, not_or] at hr'
      rw [h3 r' hr'.2 p', hother r' hr'.1 p']

/-- Adding a variable where it is not refused. -/
theorem addVarTo_ok (name : String) (dims p : List String) (force : Bool) : ∀ (rs : List Nat) (s : State), rs.Nodup →
    (force = true ∨ ∀ r ∈ rs, LacksVar s r p name) →
    ∃ t, addVarTo name dims p force rs s = (t, none) ∧ t.ranks = s.ranks ∧
      (∀ r ∈ rs, ∀ p', t.groups r p' = after s p (fun g => { g with vars := setKey name dims g.vars }) r p') ∧
      ∀ r, r ∉ rs → ∀ p', t.groups r p' = s.groups r p'
  | [], s, _, _ => ⟨s, rfl, rfl, by simp, fun _ _ _ => rfl⟩
  | r :: rs, s, hn, hl => by
    rw [List.nodup_cons] at hn
    have hc : ¬ ((! force && (get? name (groupAt (ensure s r p) r p).vars).isSome) = true) := by
      rcases hl with h | h
      · simp [h]
      · rw [groupAt_ensure]
        have : get? name (groupAt s r p).vars = none := by
          unfold groupAt
          cases hg : s.groups r p with
          | none => rfl
          | some g => exact h r (List.mem_cons_self ..) g hg
        simp [this]
    have hother : ∀ r', r' ≠ r → ∀ p', ((ensure s r p).put r p
        { groupAt (ensure s r p) r p with vars := setKey name dims (groupAt (ensure s r p) r p).vars }).groups r' p' = s.groups r' p' := by
      intro r' hr p'
      rw [put_other _ _ _ _ _ _ hr, ensure_other _ _ _ _ _ hr]
    obtain ⟨t, ht, h1, h2, h3⟩ := addVarTo_ok name dims p force rs
      ((ensure s r p).put r p { groupAt (ensure s r p) r p with vars := setKey name dims (groupAt (ensure s r p) r p).vars }) hn.2 (by
        rcases hl with h | h
        · exact Or.inl h
        · refine Or.inr fun r' hr' g hg => ?_
          have hne : r' ≠ r := fun e => hn.1 (e ▸ hr')
          rw [hother r' hne] at hg
          exact h r' (List.mem_cons_of_mem _ hr') g hg)
    refine ⟨t, ?_, h1, ?_, ?_⟩
    · rw [addVarTo]
      rw [if_neg hc]
      exact ht
    · intro r' hr' p'
      by_cases he : r' = r
      · subst he
        rw [h3 r' hn.1 p']
        exact put_after s r' p (fun g => { g with vars := setKey name dims g.vars }) p'
      · have hm : r' ∈ rs := by
          rcases List.mem_cons.1 hr' with h | h
          · exact absurd h he
          · exact h
        rw [h2 r' hm p']
        exact after_congr _ _ _ _ _ (hother r' he) p'
    · intro r' hr' p'
      simp only [List.mem_cons, not_or] at hr'
      rw [h3 r' hr'.2 p', hother r' hr'.1 p']

theorem after_same (s : State) (p : List String) (f : Group → Group) (h : SameOnRanks s) (r r' : Nat) (hr : r ∈ s.ranks) (hr' : r' ∈ s.ranks)
    (p' : List String) : after s p f r p' = after s p f r' p' := by
  unfold after groupAt
  rw [h r hr r' hr' p, h r hr r' hr' p']

theorem getDim_at (name : String) (p : List String) (r : Nat) (s : State) (hr : r ∈ s.ranks) :
    (getDim name p r s).2 = match get? name (groupAt s r p).dims with
      | some d => .ok d
      | none => .error .dimensionNotFound := by
  unfold getDim
  rw [if_pos hr]
  simp only [groupAt_ensure]
  cases get? name (groupAt s r p).dims <;> rfl

theorem getVar_at (name : String) (p : List String) (r : Nat) (s : State) (hr : r ∈ s.ranks) :
    (getVar name p r s).2 = match get? name (groupAt s r p).vars with
      | some d => .ok d
      | none => .error .keyError := by
  unfold getVar
  rw [if_pos hr]
  simp only [groupAt_ensure]
  cases get? name (groupAt s r p).vars <;> rfl

theorem groupAt_after (s t : State) (p : List String) (f : Group → Group) (r : Nat) (h : ∀ p', t.groups r p' = after s p f r p') :
    groupAt t r p = f (groupAt s r p) := by
  rw [groupAt, h p, after, if_pos rfl]
  rfl

end Ocgis.Proofs.DistRegistry
