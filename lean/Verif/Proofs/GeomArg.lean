import Verif.Spec.GeomArg
/-!
# Lemmas
-/
namespace Ocgis.Props
open Ocgis Ocgis.GeomArg Ocgis.Spec

theorem gathered (kw : Kw) (gs : List Shape) : Gathered kw gs (ofRecords kw gs) := by
  unfold ofRecords
  split
  · rename_i h; exact .union h
  · rename_i h; exact .each (by simpa using h)

theorem set_means (disk : Disk) (p : Parm) (i : Input) (ho : OrdinaryInput i) :
    (acceptable disk i = true → ∃ q, p.set disk i = .ok q ∧ q.kw = p.kw ∧ StandsFor disk p.kw i q.read) ∧
    (acceptable disk i = false → ∃ e, p.set disk i = .error e) := by
  cases i with
  | none => exact ⟨fun _ => ⟨_, rfl, rfl, .none⟩, fun h => by cases h⟩
  | nameText t =>
    simp only [acceptable, Parm.set]
    cases hd : disk.dir t
    · refine ⟨fun _ => ⟨_, rfl, rfl, ?_⟩, fun h => by cases h⟩
      simp only [Parm.read, ofName]
      cases ht : disk.there t
      · exact .key t ht
      · exact .path t ht
    · exact ⟨fun h => (by cases h), fun _ => ⟨_, rfl⟩⟩
  | records gs =>
    simp only [acceptable, Parm.set]
    cases gs with
    | nil => exact ⟨fun h => (by cases h), fun _ => ⟨_, rfl⟩⟩
    | cons g gs => exact ⟨fun _ => ⟨_, rfl, rfl, .records _ _ (gathered _ _)⟩, fun h => (by cases h)⟩
  | fields gs => exact ⟨fun _ => ⟨_, rfl, rfl, .fields gs⟩, fun h => (by cases h)⟩
  | iterator it =>
    refine ⟨fun _ => ⟨_, rfl, rfl, ?_⟩, fun h => (by cases h)⟩
    have := StandsFor.iterator (disk := disk) (kw := p.kw) it
    simp only [OrdinaryInput] at ho
    rw [ho] at this
    simp only [Parm.read]
    cases hs : p.kw.selectUid <;> rw [hs] at this <;> exact this
  | numbers xs =>
    rcases xs with _ | ⟨a, _ | ⟨b, _ | ⟨c, _ | ⟨d, _ | ⟨e, xs⟩⟩⟩⟩⟩
    · exact ⟨fun h => (by cases h), fun _ => ⟨_, rfl⟩⟩
    · exact ⟨fun h => (by cases h), fun _ => ⟨_, rfl⟩⟩
    · exact ⟨fun _ => ⟨_, rfl, rfl, .point a b _ (gathered _ _)⟩, fun h => (by cases h)⟩
    · exact ⟨fun h => (by cases h), fun _ => ⟨_, rfl⟩⟩
    · simp only [acceptable, Parm.set, ofNumbers, decide_eq_true_eq, decide_eq_false_iff_not]
      by_cases h : a = c ∨ b = d
      · simp only [if_pos h]
        refine ⟨fun h' => ?_, fun _ => ⟨_, rfl⟩⟩
        rcases h with h | h
        · exact absurd h h'.1
        · exact absurd h h'.2
      · simp only [if_neg h]
        exact ⟨fun _ => ⟨_, rfl, rfl, .box a b c d _ (gathered _ _)⟩,
          fun h' => absurd ⟨fun x => h (.inl x), fun x => h (.inr x)⟩ h'⟩
    · exact ⟨fun h => (by cases h), fun _ => ⟨_, rfl⟩⟩
  | numberText t xs =>
    simp only [acceptable, Parm.set]
    cases hd : disk.dir t
    · simp only [Bool.not_false, Bool.true_and, Bool.false_eq_true, if_false]
      rcases xs with _ | ⟨a, _ | ⟨b, _ | ⟨c, _ | ⟨d, _ | ⟨e, xs⟩⟩⟩⟩⟩
      · simp [OrdinaryInput] at ho
      · simp [OrdinaryInput] at ho
      · exact ⟨fun _ => ⟨_, rfl, rfl, .pointText t a b _ (gathered _ _)⟩, fun h => (by cases h)⟩
      · simp [OrdinaryInput] at ho
      · simp only [ofNumbers, decide_eq_true_eq, decide_eq_false_iff_not]
        by_cases h : a = c ∨ b = d
        · simp only [if_pos h]
          refine ⟨fun h' => ?_, fun _ => ⟨_, rfl⟩⟩
          rcases h with h | h
          · exact absurd h h'.1
          · exact absurd h h'.2
        · simp only [if_neg h]
          exact ⟨fun _ => ⟨_, rfl, rfl, .boxText t a b c d _ (gathered _ _)⟩,
            fun h' => absurd ⟨fun x => h (.inl x), fun x => h (.inr x)⟩ h'⟩
      · simp only [OrdinaryInput, List.length_cons] at ho
        omega
    · exact ⟨fun h => by simp at h, fun _ => ⟨_, rfl⟩⟩

theorem means_select (disk : Disk) (p : Parm) (i : Input) (ho : OrdinaryInput i) (v : Option (List Int))
    (h : StandsFor disk p.kw i p.read) :
    StandsFor disk { p.kw with selectUid := v } i ({ p with kw := { p.kw with selectUid := v } } : Parm).read := by
  have hg : ∀ gs out, Gathered p.kw gs out → Gathered { p.kw with selectUid := v } gs out := by
    intro gs out hgo
    cases hgo with
    | each h => exact .each h
    | union h => exact .union h
  obtain ⟨kw, value, key, bounds⟩ := p
  cases value with
  | none =>
    simp only [Parm.read] at h ⊢
    cases h
    exact .none
  | shapes gs =>
    simp only [Parm.read] at h ⊢
    cases h with
    | point x y _ h => exact .point x y _ (hg _ _ h)
    | pointText t x y _ h => exact .pointText t x y _ (hg _ _ h)
    | box a b c d _ h => exact .box a b c d _ (hg _ _ h)
    | boxText t a b c d _ h => exact .boxText t a b c d _ (hg _ _ h)
    | records gs _ h => exact .records gs _ (hg _ _ h)
    | fields _ => exact .fields _
  | file it =>
    simp only [Parm.read] at h ⊢
    obtain ⟨ik, ip, ⟨is, iw, iu, iun⟩⟩ := it
    generalize hval : Value.file ⟨ik, ip, ⟨kw.selectUid, iw, iu, iun⟩⟩ = w at h
    cases h with
    | path t ht =>
      injection hval with hval
      injection hval with h1 h2 h3
      subst h1; subst h2
      rw [← h3]
      exact .path t ht
    | key t ht =>
      injection hval with hval
      injection hval with h1 h2 h3
      subst h1; subst h2
      rw [← h3]
      exact .key t ht
    | iterator jt =>
      injection hval with hval
      obtain ⟨jk, jp, ⟨js, jw, ju, jun⟩⟩ := jt
      simp only [OrdinaryInput] at ho
      subst ho
      injection hval with h1 h2 h3
      injection h3 with h3 h4 h5 h6
      simp only at h4 h5 h6
      subst h1; subst h2; subst h4; subst h5; subst h6
      have := StandsFor.iterator (disk := disk) (kw := { kw with selectUid := v }) ⟨ik, ip, ⟨none, iw, iu, iun⟩⟩
      cases v <;> exact this
    | none => cases hval
    | point => cases hval
    | pointText => cases hval
    | box => cases hval
    | boxText => cases hval
    | records => cases hval
    | fields => cases hval

/-- What the parameter remembers of the geometries assigned, with the last of them. -/
structure Remembers (kw : Kw) (ins : List Input) (last : Input) (p : Parm) : Prop where
  union : p.kw.union = kw.union
  key : (∀ j ∈ ins, standing j < 2) → p.shpKey = none
  bounds : (∀ j ∈ ins, standing j ≠ 1) → p.bounds = none
  isNone : last = .none → p.value = .none
  notNone : last ≠ .none → p.value ≠ .none
  file : standing last = 2 → ∃ s, p.shpKey = some s ∧ Describes kw last (.named s)
  nums : standing last = 1 → ∃ b, p.bounds = some b ∧ Describes kw last (.bounds b)
  rest : standing last = 0 → last ≠ .none → ∃ gs, p.value = .shapes gs ∧ Describes kw last (.count gs.length)

theorem remembers_about (kw : Kw) (ins : List Input) (last : Input) (p : Parm) (h : Remembers kw ins last p)
    (hr : ∀ j ∈ ins, standing j ≤ standing last) : Describes kw last p.about := by
  by_cases hn : last = .none
  · rw [Parm.about, h.isNone hn, hn]
    exact .none
  have habout : p.about = match p.shpKey with
      | some s => .named s
      | none => match p.bounds with
        | some b => .bounds b
        | none => match p.value with
          | .shapes gs => .count gs.length
          | _ => .count 0 := by
    unfold Parm.about
    cases hv : p.value with
    | none => exact absurd hv (h.notNone hn)
    | file it => rfl
    | shapes gs => rfl
  rw [habout]
  rcases (by cases last <;> simp [standing] : standing last = 0 ∨ standing last = 1 ∨ standing last = 2) with h0 | h1 | h2
  · rw [h.key (fun j hj => by have := hr j hj; omega), h.bounds (fun j hj => by have := hr j hj; omega)]
    obtain ⟨gs, hv, hd⟩ := h.rest h0 hn
    rw [hv]
    exact hd
  · rw [h.key (fun j hj => by have := hr j hj; omega)]
    obtain ⟨b, hb, hd⟩ := h.nums h1
    rw [hb]
    exact hd
  · obtain ⟨s, hs, hd⟩ := h.file h2
    rw [hs]
    exact hd

theorem ofRecords_length (kw : Kw) (gs : List Shape) : (ofRecords kw gs).length = if kw.union then 1 else gs.length := by
  unfold ofRecords
  split <;> rfl

theorem set_remembers (disk : Disk) (kw : Kw) (ins : List Input) (last j : Input) (p q : Parm) (h : Remembers kw ins last p)
    (hs : p.set disk j = .ok q) (hn : NamedInput j) : Remembers kw (ins ++ [j]) j q := by
  have hkey : standing j < 2 → q.shpKey = p.shpKey → (∀ x ∈ ins ++ [j], standing x < 2) → q.shpKey = none := by
    intro _ h1 h2
    rw [h1, h.key (fun x hx => h2 x (List.mem_append_left _ hx))]
  have hbnd : q.bounds = p.bounds → (∀ x ∈ ins ++ [j], standing x ≠ 1) → q.bounds = none := by
    intro h1 h2
    rw [h1, h.bounds (fun x hx => h2 x (List.mem_append_left _ hx))]
  have hself : ∀ {P : Input → Prop}, (∀ x ∈ ins ++ [j], P x) → P j := fun h2 => h2 j (by simp)
  cases j with
  | none =>
    simp only [Parm.set] at hs
    injection hs with hs
    subst hs
    exact ⟨h.union, hkey (by simp [standing]) rfl, hbnd rfl, fun _ => rfl, fun h => absurd rfl h, by simp [standing],
      by simp [standing], fun _ h => absurd rfl h⟩
  | nameText t =>
    simp only [Parm.set] at hs
    split at hs
    · cases hs
    · injection hs with hs
      subst hs
      exact ⟨h.union, fun h2 => absurd (hself h2) (by simp [standing]), hbnd rfl, by simp, fun _ => by simp,
        fun _ => ⟨t, rfl, .name t⟩, by simp [standing], by simp [standing]⟩
  | records gs =>
    simp only [Parm.set] at hs
    split at hs
    · cases hs
    · injection hs with hs
      subst hs
      refine ⟨h.union, hkey (by simp [standing]) rfl, hbnd rfl, by simp, fun _ => by simp, by simp [standing],
        by simp [standing], fun _ _ => ⟨_, rfl, ?_⟩⟩
      rw [ofRecords_length, h.union]
      exact .records gs
  | fields gs =>
    simp only [Parm.set] at hs
    injection hs with hs
    subst hs
    exact ⟨h.union, hkey (by simp [standing]) rfl, hbnd rfl, by simp, fun _ => by simp, by simp [standing],
      by simp [standing], fun _ _ => ⟨_, rfl, .fields gs⟩⟩
  | iterator it =>
    simp only [Parm.set] at hs
    injection hs with hs
    subst hs
    refine ⟨h.union, fun h2 => absurd (hself h2) (by simp [standing]), hbnd rfl, by simp, fun _ => by simp, ?_, by simp [standing],
      by simp [standing]⟩
    intro _
    simp only [NamedInput] at hn
    unfold It.name
    cases hk : it.key with
    | some s => exact ⟨s, rfl, .iterator it s (.inl hk)⟩
    | none =>
      cases hp : it.path with
      | some s => exact ⟨s, rfl, .iterator it s (.inr ⟨hk, hp⟩)⟩
      | none => simp [hk, hp] at hn
  | numbers xs =>
    simp only [Parm.set] at hs
    split at hs
    · rename_i g hg
      injection hs with hs
      subst hs
      refine ⟨h.union, hkey (by simp [standing]) rfl, fun h2 => absurd (hself h2) (by simp [standing]), by simp, fun _ => by simp,
        by simp [standing], ?_, by simp [standing]⟩
      intro _
      refine ⟨_, rfl, ?_⟩
      rcases xs with _ | ⟨a, _ | ⟨b, _ | ⟨c, _ | ⟨d, _ | ⟨e, xs⟩⟩⟩⟩⟩ <;> simp only [ofNumbers, reduceCtorEq] at hg
      · simp only [Option.some.injEq, Except.ok.injEq] at hg
        subst hg
        exact .point a b
      · split at hg
        · simp at hg
        · simp only [Option.some.injEq, Except.ok.injEq] at hg
          subst hg
          exact .box a b c d
    · cases hs
    · cases hs
  | numberText t xs =>
    simp only [Parm.set] at hs
    split at hs
    · cases hs
    · split at hs
      · injection hs with hs
        subst hs
        exact ⟨h.union, hkey (by simp [standing]) rfl, fun h2 => absurd (hself h2) (by simp [standing]), by simp, fun _ => by simp,
          by simp [standing], fun _ => ⟨xs, rfl, .text t xs⟩, by simp [standing]⟩
      · cases hs
      · rename_i hx
        simp only [NamedInput] at hn
        rcases xs with _ | ⟨a, _ | ⟨b, _ | ⟨c, _ | ⟨d, _ | ⟨e, xs⟩⟩⟩⟩⟩ <;> simp [ofNumbers] at hx hn

theorem remembers_select (kw : Kw) (ins : List Input) (last : Input) (p : Parm) (v : Option (List Int))
    (h : Remembers kw ins last p) : Remembers kw ins last { p with kw := { p.kw with selectUid := v } } :=
  ⟨h.union, h.key, h.bounds, h.isNone, h.notNone, h.file, h.nums, h.rest⟩

/-- The geometries that raised no error, by the library's own account. -/
theorem set_error_iff (disk : Disk) (p : Parm) (j : Input) (hn : NamedInput j) :
    (acceptable disk j = true → ∃ q, p.set disk j = .ok q) ∧ (acceptable disk j = false → ∃ e, p.set disk j = .error e) := by
  cases j with
  | iterator it => exact ⟨fun _ => ⟨_, rfl⟩, fun h => (by cases h)⟩
  | numberText t xs =>
    obtain ⟨h1, h2⟩ := set_means disk p (.numberText t xs) hn
    exact ⟨fun h => ⟨_, (h1 h).choose_spec.1⟩, h2⟩
  | none => exact ⟨fun _ => ⟨_, rfl⟩, fun h => (by cases h)⟩
  | nameText t =>
    obtain ⟨h1, h2⟩ := set_means disk p (.nameText t) trivial
    exact ⟨fun h => ⟨_, (h1 h).choose_spec.1⟩, h2⟩
  | numbers xs =>
    obtain ⟨h1, h2⟩ := set_means disk p (.numbers xs) trivial
    exact ⟨fun h => ⟨_, (h1 h).choose_spec.1⟩, h2⟩
  | records gs =>
    obtain ⟨h1, h2⟩ := set_means disk p (.records gs) trivial
    exact ⟨fun h => ⟨_, (h1 h).choose_spec.1⟩, h2⟩
  | fields gs => exact ⟨fun _ => ⟨_, rfl⟩, fun h => (by cases h)⟩

end Ocgis.Props
