import Verif.Spec.GridMask
import Verif.Proofs.Masks
/-!
# Lemmas on the mask of a grid
-/
namespace Ocgis.Proofs.GridMask
open Ocgis.Array (Arr)
open Ocgis.Masks Ocgis.GridMask Ocgis.Spec

theorem lookup_put (n k : String) (v : GV) (l : List (String × GV)) :
    (put n v l).lookup k = if k = n then some v else l.lookup k := by
  induction l with
  | nil =>
    by_cases h : k = n
    · simp [put, h]
    · simp only [put, List.lookup, if_neg h]
      rw [show (k == n) = false by simpa using h]
  | cons e r ih =>
    obtain ⟨j, w⟩ := e
    by_cases hj : j = n
    · subst hj
      by_cases h : k = j
      · simp [put, h]
      · simp only [put, if_true, List.lookup, if_neg h]
        rw [show (k == j) = false by simpa using h]
    · simp only [put, if_neg hj, List.lookup]
      by_cases h : k = j
      · subst h
        simp [hj]
      · rw [show (k == j) = false by simpa using h]
        exact ih

theorem put_same (n : String) (v : GV) (l : List (String × GV)) (h : l.lookup n = some v) : put n v l = l := by
  induction l with
  | nil => cases h
  | cons e r ih =>
    obtain ⟨j, w⟩ := e
    by_cases hj : j = n
    · subst hj
      simp at h
      subst h
      simp [put]
    · simp only [put, if_neg hj]
      simp only [List.lookup] at h
      rw [show (n == j) = false by simpa using fun e => hj e.symm] at h
      rw [ih h]

theorem lookup_filter (n k : String) (l : List (String × GV)) :
    (l.filter fun e => e.1 ≠ n).lookup k = if k = n then none else l.lookup k := by
  induction l with
  | nil => simp
  | cons e r ih =>
    obtain ⟨j, w⟩ := e
    by_cases hj : j = n
    · subst hj
      rw [List.filter_cons_of_neg (by simp), ih]
      by_cases h : k = j
      · simp [h]
      · simp only [if_neg h, List.lookup]
        rw [show (k == j) = false by simpa using h]
    · rw [List.filter_cons_of_pos (by simpa using hj)]
      simp only [List.lookup]
      by_cases h : k = j
      · subst h; simp [hj]
      · rw [show (k == j) = false by simpa using h]
        exact ih

theorem mem_of_lookup {l : List (String × GV)} {k : String} {v : GV} (h : l.lookup k = some v) : (k, v) ∈ l := by
  induction l with
  | nil => cases h
  | cons e r ih =>
    obtain ⟨j, w⟩ := e
    simp only [List.lookup] at h
    by_cases hj : k = j
    · subst hj
      simp at h
      subst h
      simp
    · rw [show (k == j) = false by simpa using hj] at h
      exact List.mem_cons_of_mem _ (ih h)

theorem maskVariable_none {g : GridField} (h : g.mask = none) : g.maskVariable = .ok none := by
  simp [GridField.maskVariable, h]

theorem maskVariable_some {g : GridField} {n : String} {v : GV} (h : g.mask = some n) (hv : g.vars.lookup n = some v) :
    g.maskVariable = .ok (some v) := by
  simp [GridField.maskVariable, h, hv]

theorem setMask_ok (v : MVar) (a : Arr Bool) (h : a.shape = v.shape) :
    setMask v (some a) false = .ok { v with mask := some a.elem } := by
  simp [setMask, shapeOk, h]

theorem setMask_none (v : MVar) : setMask v none false = .ok { v with mask := none } := by
  simp [setMask, shapeOk]

theorem setMask_bad (v : MVar) (a : Arr Bool) (h : a.shape ≠ v.shape) : setMask v (some a) false = .error .assertionError := by
  simp [setMask, shapeOk, h]

/-- The mask variable made for an array. -/
def fresh (g : GridField) (m : Option (List Nat → Bool)) : GV :=
  ⟨{ name := maskName, names := g.names, shape := g.shape, mask := m }, true, fun _ => false⟩

theorem newMask_ok (g : GridField) (a : Arr Bool) (h : a.shape = g.shape) : newMask g (some a) = .ok (fresh g (some a.elem)) := by
  simp [newMask, fresh, setMask_ok { name := maskName, names := g.names, shape := g.shape } a h]

theorem newMask_none (g : GridField) : newMask g none = .ok (fresh g none) := by
  simp [newMask, setMask_none, fresh]

/-- A variable set as the mask leaves the field ready. -/
theorem ready_put {g : GridField} (hg : MaskReady g) (n : String) (v : GV) (hn : v.var.name = n)
    (hm : g.mask = some n ∨ g.mask = none ∧ n = maskName) (hr : v.role = true) (hns : v.var.names = g.names) (hs : v.var.shape = g.shape) :
    MaskReady { g with vars := put n v g.vars, mask := some n } := by
  refine ⟨?_, ?_, ?_⟩
  · intro k w hk
    simp only [lookup_put] at hk
    by_cases h : k = n
    · rw [if_pos h] at hk; cases hk; rw [hn, h]
    · rw [if_neg h] at hk; exact hg.named k w hk
  · intro k hk
    simp only [Option.some.injEq] at hk
    subst hk
    exact ⟨v, by simp [lookup_put], hr, hns, hs⟩
  · intro h
    simp only [lookup_put] at h
    by_cases hd : "ocgis_spatial_mask" = n
    · rw [hd]
    · rw [if_neg hd] at h
      rcases hm with hm | ⟨hm, hmn⟩
      · rw [← hm]; exact hg.default h
      · exact absurd hmn (fun e => hd e.symm)

/-- The same with coordinate variables replaced. -/
theorem ready_put' {g : GridField} (vars : List (String × GV)) (hnamed : ∀ k v, vars.lookup k = some v → v.var.name = k)
    (n : String) (v : GV) (hn : v.var.name = n) (hmn : n = maskName) (hr : v.role = true) (hns : v.var.names = g.names)
    (hs : v.var.shape = g.shape) :
    MaskReady { g with vars := put n v vars, mask := some n } := by
  refine ⟨?_, ?_, ?_⟩
  · intro k w hk
    simp only [lookup_put] at hk
    by_cases h : k = n
    · rw [if_pos h] at hk; cases hk; rw [hn, h]
    · rw [if_neg h] at hk; exact hnamed k w hk
  · intro k hk
    simp only [Option.some.injEq] at hk
    subst hk
    exact ⟨v, by simp [lookup_put], hr, hns, hs⟩
  · intro _; subst hmn; rfl

theorem getMask_have {g : GridField} {n : String} {v : GV} (hm : g.mask = some n) (hv : g.vars.lookup n = some v) (hr : v.role = true)
    {m : List Nat → Bool} (hmask : v.var.mask = some m) (c k : Bool) : getMask g c k = .ok (g, some m) := by
  unfold getMask
  rw [maskVariable_some hm hv]
  simp only [hr, if_true, varMask, hmask, hm, Option.getD_some, put_same n v g.vars hv]
  cases g; simp_all

theorem getMask_false {g : GridField} {n : String} {v : GV} (hm : g.mask = some n) (hv : g.vars.lookup n = some v) (hr : v.role = true)
    (k : Bool) : getMask g false k = .ok (g, v.var.mask) := by
  cases hmask : v.var.mask with
  | some m => exact getMask_have hm hv hr hmask false k
  | none =>
    unfold getMask
    rw [maskVariable_some hm hv]
    have hp := put_same n v g.vars hv
    simp only [hr, if_true, varMask, hmask, hm, Option.getD_some]
    cases g; simp_all

theorem getMask_absent {g : GridField} (hm : g.mask = none) (k : Bool) : getMask g false k = .ok (g, none) := by
  unfold getMask
  rw [maskVariable_none hm]
  simp

/-- Setting an array. -/
theorem set_array {g : GridField} (hg : MaskReady g) (a : Arr Bool) (ha : a.shape = g.shape) :
    ∃ g' n v, setPlain g (.array a) = .ok g' ∧ MaskReady g' ∧ g' = { g with vars := put n v g.vars, mask := some n } ∧
      (g.mask = some n ∨ g.mask = none ∧ n = maskName) ∧ v.role = true ∧ v.var.mask = some a.elem ∧ v.var.names = g.names ∧
      v.var.shape = g.shape ∧ v.var.name = n := by
  cases hm : g.mask with
  | none =>
    have hd : g.vars.lookup maskName = none := by
      cases hl : g.vars.lookup maskName with
      | none => rfl
      | some v =>
        have := hg.default (by rw [show "ocgis_spatial_mask" = maskName from rfl, hl]; simp)
        rw [hm] at this; cases this
    refine ⟨_, maskName, fresh g (some a.elem), ?_, ready_put hg maskName (fresh g (some a.elem)) rfl (.inr ⟨hm, rfl⟩) rfl rfl rfl, rfl, .inr ⟨rfl, rfl⟩,
      rfl, rfl, rfl, rfl, rfl⟩
    simp only [setPlain, maskVariable_none hm, newMask_ok g a ha, hd]
    rfl
  | some n =>
    obtain ⟨v, hv, hr, hns, hs⟩ := hg.mask n hm
    have hok := setMask_ok v.var a (by rw [ha, hs])
    refine ⟨_, n, { v with var := { v.var with mask := some a.elem } }, ?_,
      ready_put hg n { v with var := { v.var with mask := some a.elem } } (hg.named n v hv) (.inl hm) hr hns hs, rfl, .inl rfl, hr, rfl, hns, hs,
      hg.named n v hv⟩
    simp only [setPlain, maskVariable_some hm hv, hok, hm, Option.getD_some]

theorem remove_ok {g : GridField} (hg : MaskReady g) :
    ∃ g', setPlain g .nothing = .ok g' ∧ MaskReady g' ∧ g'.mask = none ∧ SameGrid g g' ∧
      (∀ k, g.mask ≠ some k → g'.vars.lookup k = g.vars.lookup k) ∧ (∀ k, g.mask = some k → g'.vars.lookup k = none) := by
  cases hm : g.mask with
  | none =>
    refine ⟨g, by simp [setPlain, maskVariable_none hm], hg, hm, ⟨rfl, rfl, rfl, rfl⟩, fun _ _ => rfl, fun k h => (by cases h)⟩
  | some n =>
    obtain ⟨v, hv, -⟩ := hg.mask n hm
    refine ⟨{ g with vars := g.vars.filter fun e => e.1 ≠ n, mask := none }, ?_, ⟨?_, ?_, ?_⟩, rfl, ⟨rfl, rfl, rfl, rfl⟩, ?_, ?_⟩
    · simp [setPlain, maskVariable_some hm hv, hm]
    · intro k w hk
      simp only [lookup_filter] at hk
      by_cases h : k = n
      · rw [if_pos h] at hk; cases hk
      · rw [if_neg h] at hk; exact hg.named k w hk
    · intro k hk; cases hk
    · intro h
      simp only [lookup_filter] at h
      by_cases hd : "ocgis_spatial_mask" = n
      · rw [if_pos hd] at h; exact absurd rfl h
      · rw [if_neg hd] at h
        have := hg.default h
        rw [hm] at this
        exact absurd (Option.some.inj this).symm hd
    · intro k hk
      simp only [lookup_filter]
      rw [if_neg (fun h => hk (by rw [h]))]
    · intro k hk
      cases hk
      simp only [lookup_filter, if_true]

/-- Creating a mask without looking at values. -/
theorem get_create {g : GridField} (hg : MaskReady g) :
    ∃ now g', (∀ k, getMask g false k = .ok (g, now)) ∧ getMask g true false = .ok (g', some (now.getD fun _ => false)) ∧ MaskReady g' ∧
      SameGrid g g' ∧ (∃ n v, g'.mask = some n ∧ g'.vars.lookup n = some v ∧ v.role = true ∧ v.var.mask = some (now.getD fun _ => false) ∧
        (g.mask = some n ∨ g.mask = none ∧ n = maskName)) ∧
      (∀ k, g'.mask ≠ some k → g'.vars.lookup k = g.vars.lookup k) := by
  cases hm : g.mask with
  | none =>
    refine ⟨none, _, getMask_absent hm, ?_, ready_put hg maskName (fresh g (some fun _ => false)) rfl (.inr ⟨hm, rfl⟩) rfl rfl rfl,
      ⟨rfl, rfl, rfl, rfl⟩, ⟨maskName, fresh g (some fun _ => false), rfl, by simp [lookup_put], rfl, rfl, .inr ⟨rfl, rfl⟩⟩, ?_⟩
    · unfold getMask
      simp only [maskVariable_none hm, if_true]
      rfl
    · intro k hk
      simp only [lookup_put]
      rw [if_neg (fun h => hk (by rw [h]))]
  | some n =>
    obtain ⟨v, hv, hr, hns, hs⟩ := hg.mask n hm
    cases hmask : v.var.mask with
    | some m =>
      refine ⟨some m, g, fun k => ?_, getMask_have hm hv hr hmask true false, hg, ⟨rfl, rfl, rfl, rfl⟩, ⟨n, v, hm, hv, hr, hmask, .inl rfl⟩,
        fun _ _ => rfl⟩
      rw [getMask_false hm hv hr k, hmask]
    | none =>
      let w : GV := { v with var := { v.var with mask := some fun _ => false } }
      refine ⟨none, { g with vars := put n w g.vars, mask := some n }, fun k => ?_, ?_,
        ready_put hg n w (hg.named n v hv) (.inl hm) hr hns hs, ⟨rfl, rfl, rfl, rfl⟩, ⟨n, w, rfl, by simp [lookup_put], hr, rfl, .inl rfl⟩, ?_⟩
      · rw [getMask_false hm hv hr k, hmask]
      · unfold getMask
        rw [maskVariable_some hm hv]
        simp [hr, varMask, hmask, hm, w]
      · intro k hk
        simp only [lookup_put]
        rw [if_neg (fun h => hk (by rw [h]))]

/-! ## Coordinate masks -/

theorem varMask_hides (v : GV) (idx : List Nat) : ((varMask v true true).2.getD fun _ => false) idx = true ↔ Hides v idx := by
  unfold varMask Hides
  cases v.var.mask <;> simp

theorem varMask_keeps (v : GV) : (varMask v true true).1.var.shape = v.var.shape ∧ (varMask v true true).1.var.name = v.var.name ∧
    ∀ idx, Hides (varMask v true true).1 idx ↔ Hides v idx := by
  unfold varMask Hides
  cases h : v.var.mask <;> simp [h]

theorem npOr_same (a b : Arr Bool) (h : a.shape = b.shape) : npOr a b = .ok ⟨a.shape, fun i => a.elem i || b.elem i⟩ := by
  simp [npOr, h]

theorem combine_ok (shape : List Nat) : ∀ (cs : List String) (vars : List (String × GV)) (acc : Option (Arr Bool)),
    cs.Nodup → (∀ a, acc = some a → a.shape = shape) → (∀ c ∈ cs, ∃ v, vars.lookup c = some v ∧ v.var.shape = shape) →
    ∃ vars' m, combine cs vars acc = .ok (vars', m) ∧ (∀ a, m = some a → a.shape = shape) ∧ ((cs ≠ [] ∨ acc.isSome) → m.isSome) ∧
      (∀ idx, maskHas m idx ↔ maskHas acc idx ∨ ∃ c ∈ cs, ∃ v, vars.lookup c = some v ∧ Hides v idx) ∧
      (∀ k, k ∉ cs → vars'.lookup k = vars.lookup k) ∧
      (∀ k v, vars.lookup k = some v → ∃ w, vars'.lookup k = some w ∧ w.var.name = v.var.name ∧ ∀ idx, Hides w idx ↔ Hides v idx) ∧
      (∀ k, vars.lookup k = none → vars'.lookup k = none) := by
  intro cs
  induction cs with
  | nil =>
    intro vars acc _ ha _
    exact ⟨vars, acc, rfl, ha, fun h => by simpa using h, by simp, fun _ _ => rfl, fun k v h => ⟨v, h, rfl, fun _ => Iff.rfl⟩, fun _ h => h⟩
  | cons c cs ih =>
    intro vars acc hn ha hc
    obtain ⟨v, hv, hs⟩ := hc c (by simp)
    obtain ⟨hcn, hn⟩ := List.nodup_cons.1 hn
    have hrest : ∀ d ∈ cs, ∃ w, (put c (varMask v true true).1 vars).lookup d = some w ∧ w.var.shape = shape := by
      intro d hd
      have hdc : d ≠ c := fun e => hcn (e ▸ hd)
      rw [lookup_put, if_neg hdc]
      exact hc d (List.mem_cons_of_mem _ hd)
    have key : ∀ acc' : Option (Arr Bool), acc'.isSome → (∀ a, acc' = some a → a.shape = shape) →
        (∀ idx, maskHas acc' idx ↔ maskHas acc idx ∨ Hides v idx) →
        combine (c :: cs) vars acc = combine cs (put c (varMask v true true).1 vars) acc' →
        ∃ vars' m, combine (c :: cs) vars acc = .ok (vars', m) ∧ (∀ a, m = some a → a.shape = shape) ∧ ((c :: cs ≠ [] ∨ acc.isSome) → m.isSome) ∧
          (∀ idx, maskHas m idx ↔ maskHas acc idx ∨ ∃ d ∈ c :: cs, ∃ w, vars.lookup d = some w ∧ Hides w idx) ∧
          (∀ k, k ∉ c :: cs → vars'.lookup k = vars.lookup k) ∧
          (∀ k v, vars.lookup k = some v → ∃ w, vars'.lookup k = some w ∧ w.var.name = v.var.name ∧ ∀ idx, Hides w idx ↔ Hides v idx) ∧
          (∀ k, vars.lookup k = none → vars'.lookup k = none) := by
      intro acc' hsome hshape hhas heq
      obtain ⟨vars', m, h1, h2, h3, h4, h5, h6, h7⟩ := ih (put c (varMask v true true).1 vars) acc' hn hshape hrest
      refine ⟨vars', m, by rw [heq, h1], h2, fun _ => h3 (.inr hsome), ?_, ?_, ?_, ?_⟩
      · intro idx
        rw [h4, hhas]
        constructor
        · rintro ((h | h) | ⟨d, hd, w, hw, hh⟩)
          · exact .inl h
          · exact .inr ⟨c, by simp, v, hv, h⟩
          · have hdc : d ≠ c := fun e => hcn (e ▸ hd)
            rw [lookup_put, if_neg hdc] at hw
            exact .inr ⟨d, List.mem_cons_of_mem _ hd, w, hw, hh⟩
        · rintro (h | ⟨d, hd, w, hw, hh⟩)
          · exact .inl (.inl h)
          · rcases List.mem_cons.1 hd with rfl | hd
            · rw [hv] at hw; cases hw
              exact .inl (.inr hh)
            · have hdc : d ≠ c := fun e => hcn (e ▸ hd)
              exact .inr ⟨d, hd, w, by rw [lookup_put, if_neg hdc]; exact hw, hh⟩
      · intro k hk
        rw [h5 k (fun h => hk (List.mem_cons_of_mem _ h)), lookup_put, if_neg (fun e => hk (by simp [e]))]
      · intro k w hw
        by_cases hkc : k = c
        · subst hkc
          rw [hv] at hw; cases hw
          obtain ⟨u, hu, hun, huh⟩ := h6 k (varMask v true true).1 (by simp [lookup_put])
          obtain ⟨-, e2, e3⟩ := varMask_keeps v
          exact ⟨u, hu, by rw [hun, e2], fun idx => by rw [huh, e3]⟩
        · exact h6 k w (by rw [lookup_put, if_neg hkc]; exact hw)
      · intro k hk
        refine h7 k ?_
        rw [lookup_put, if_neg (fun e => by rw [e, hv] at hk; cases hk)]
        exact hk
    cases acc with
    | none =>
      refine key (some ⟨v.var.shape, (varMask v true true).2.getD fun _ => false⟩) rfl (fun a h => by cases h; exact hs) ?_ ?_
      · intro idx
        simp only [maskHas, Option.some.injEq, exists_eq_left', varMask_hides, reduceCtorEq, false_and, exists_false, false_or]
      · simp only [combine, hv]
    | some a =>
      have hor := npOr_same ⟨v.var.shape, (varMask v true true).2.getD fun _ => false⟩ a (by rw [ha a rfl]; exact hs)
      refine key (some ⟨v.var.shape, fun i => ((varMask v true true).2.getD fun _ => false) i || a.elem i⟩) rfl (fun a h => by cases h; exact hs) ?_ ?_
      · intro idx
        simp only [maskHas, Option.some.injEq, exists_eq_left', Bool.or_eq_true, varMask_hides]
        exact Or.comm
      · simp only [combine, hv, hor]

/-! ## Cascade -/

theorem cascadeVars_ok (m : MVar) (ex : List String) : ∀ l : List (String × GV),
    (∀ e ∈ l, ∃ w, cascadeOne m ex false e.2.var = .ok w) →
    ∃ l', cascadeVars m ex l = .ok l' ∧ (∀ k v, l.lookup k = some v → ∃ w, l'.lookup k = some { v with var := w } ∧
      cascadeOne m ex false v.var = .ok w) ∧ (∀ k, l.lookup k = none → l'.lookup k = none) := by
  intro l
  induction l with
  | nil => intro _; exact ⟨[], rfl, fun k v h => (by cases h), fun _ _ => rfl⟩
  | cons e r ih =>
    intro h
    obtain ⟨j, v⟩ := e
    obtain ⟨w, hw⟩ := h (j, v) (by simp)
    obtain ⟨r', hr, h1, h2⟩ := ih (fun e he => h e (List.mem_cons_of_mem _ he))
    refine ⟨(j, { v with var := w }) :: r', ?_, ?_, ?_⟩
    · simp only [cascadeVars, hr]
      simp only at hw
      rw [hw]
    · intro k u hu
      simp only [List.lookup] at hu ⊢
      by_cases hj : k = j
      · subst hj
        simp at hu ⊢
        subst hu
        exact ⟨w, ⟨rfl, rfl, rfl⟩, hw⟩
      · rw [show (k == j) = false by simpa using hj] at hu ⊢
        exact h1 k u hu
    · intro k hu
      simp only [List.lookup] at hu ⊢
      by_cases hj : k = j
      · subst hj; simp at hu
      · rw [show (k == j) = false by simpa using hj] at hu ⊢
        exact h2 k hu

theorem fold_put_keep (k : String) : ∀ (os : List GV) (l : List (String × GV)), (∀ o ∈ os, o.var.name ≠ k) →
    (os.foldl (fun l o => put o.var.name o l) l).lookup k = l.lookup k := by
  intro os
  induction os with
  | nil => intro l _; rfl
  | cons o os ih =>
    intro l h
    rw [List.foldl_cons, ih _ (fun p hp => h p (List.mem_cons_of_mem _ hp)), lookup_put, if_neg (fun e => h o (by simp) e.symm)]

theorem fold_put_last (o : GV) : ∀ (os : List GV) (l : List (String × GV)), o ∈ os → (os.map fun o => o.var.name).Nodup →
    (os.foldl (fun l o => put o.var.name o l) l).lookup o.var.name = some o := by
  intro os
  induction os with
  | nil => intro l h; cases h
  | cons p os ih =>
    intro l h hn
    simp only [List.map_cons, List.nodup_cons] at hn
    rw [List.foldl_cons]
    rcases List.mem_cons.1 h with rfl | h
    · rw [fold_put_keep _ os _ (fun q hq e => hn.1 (List.mem_map.2 ⟨q, hq, e⟩)), lookup_put, if_pos rfl]
    · exact ih _ h hn.2

end Ocgis.Proofs.GridMask
