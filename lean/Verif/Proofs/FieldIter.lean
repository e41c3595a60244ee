import Verif.Spec.FieldIter
import Verif.Proofs.RecordIter

/-! # Lemmas about the records of a field -/

namespace Ocgis.FieldIter
open Ocgis Ocgis.RecordIter Ocgis.Spec Ocgis.Collection Ocgis.Masks Ocgis.Props

/-! ## Rows of iterators with formatters -/

/-- Like `Follows`, with any formatter. -/
structure FollowsF {α : Type} (size : String → Nat) (lead f : It α) : Prop where
  sized : Sized size f.var
  subset : ∀ d ∈ f.var.dims, d ∈ lead.var.dims
  order : f.var.dims = lead.var.dims → f.remap = none ∧ f.shape = f.var.shape

theorem attachedF_pieces {α : Type} (size : String → Nat) (lead f : It α) (hl : Leads size lead) (hf : FollowsF size lead f) :
    pieces (attached lead f) = .ok ((allIdx lead.var.shape).map fun idx => piece f (indexAt lead.var f.var idx)) := by
  have hshape : (attached lead f).shape = lead.var.shape := by
    rw [attached]
    split
    · next h => rw [(hf.order h).2, hf.sized.1, h, ← hl.sized.1]
    · exact hl.shape
  rw [pieces, hshape]
  apply Ocgis.Mpi.mapM_ok
  intro idx hidx
  have hin := (mem_allIdx lead.var.shape idx).1 hidx
  have hpick : pick (attached lead f).remap idx = indexAt lead.var f.var idx := by
    rw [attached]
    split
    · next h => rw [(hf.order h).1, indexAt_self size lead.var f.var hl.sized h idx hin]; rfl
    · simp only [RecordIter.pick, indexAt, List.map_map]; rfl
  rw [hpick, attached_var, inShape_of _ _ (indexAt_in size lead.var f.var hl.sized hf.sized hf.subset idx hin), if_pos rfl,
    attached_piece]

theorem membersF_pieces {α : Type} (size : String → Nat) (lead : It α) (hl : Leads size lead) (fs : List (It α))
    (hf : ∀ f ∈ fs, FollowsF size lead f) :
    (lead :: fs.map (attached lead)).mapM pieces
      = .ok ((lead :: fs).map fun f => (allIdx lead.var.shape).map fun idx => piece f (indexAt lead.var f.var idx)) := by
  have key : ∀ fs : List (It α), (∀ f ∈ fs, FollowsF size lead f) → (fs.map (attached lead)).mapM pieces
      = .ok (fs.map fun f => (allIdx lead.var.shape).map fun idx => piece f (indexAt lead.var f.var idx)) := by
    intro fs
    induction fs with
    | nil => intro _; rfl
    | cons f fs ih =>
      intro h
      rw [List.map_cons, List.mapM_cons, attachedF_pieces size lead f hl (h f (by simp)),
        ih (fun g hg => h g (by simp [hg]))]
      rfl
  rw [List.mapM_cons, lead_pieces size lead hl, key fs hf]; rfl

/-- The pairs of a piece that is not skipped. -/
def pairsF {α : Type} (f : It α) (idx : List Nat) : List (String × Cell α) :=
  ((f.repeaters.getD []).map fun r => (r.1, Cell.data (some r.2))) ++ formatted f idx

theorem pieceF_eq {α : Type} (f : It α) (idx : List Nat) :
    piece f idx = if asksSkip f idx then .skip else .pairs (pairsF f idx) := rfl

theorem anyF_skip {α : Type} (its : List (It α)) (at_ : It α → List Nat) :
    (its.map fun f => piece f (at_ f)).any isSkip = its.any fun f => asksSkip f (at_ f) := by
  induction its with
  | nil => rfl
  | cons f its ih =>
    rw [List.map_cons, List.any_cons, List.any_cons, ih, pieceF_eq f]
    cases asksSkip f (at_ f) <;> rfl

/-- The pairs of a record. -/
def recordPairs {α : Type} (lead : It α) (its : List (It α)) (idx : List Nat) : List (String × Cell α) :=
  (its.map fun f => pairsF f (indexAt lead.var f.var idx)).flatten

/-- The dictionary of a record that is not left out. -/
def recordRowF {α : Type} (lead : It α) (its : List (It α)) (idx : List Nat) : Row α :=
  (recordPairs lead its idx).foldl (fun r p => Dict.set r p.1 p.2) []

theorem recordF_eq {α : Type} (lead : It α) (its : List (It α))
    (hskip : lead.allowMasked = true → ∀ f ∈ its, f.allowMasked = true) (idx : List Nat) :
    record lead (its.map fun f => piece f (indexAt lead.var f.var idx))
      = .ok (if (!lead.allowMasked && its.any fun f => asksSkip f (indexAt lead.var f.var idx)) = true then none
        else some (recordRowF lead its idx)) := by
  rw [record, anyF_skip its]
  split
  · next h => rfl
  · next h =>
    have hno : ∀ f ∈ its, asksSkip f (indexAt lead.var f.var idx) = false := by
      intro f hfm
      cases hl : lead.allowMasked with
      | true => simp [asksSkip, hskip hl f hfm]
      | false =>
        rw [hl] at h
        cases hc : asksSkip f (indexAt lead.var f.var idx) with
        | false => rfl
        | true =>
          exfalso; apply h
          simp only [Bool.not_false, Bool.true_and]
          exact List.any_eq_true.2 ⟨f, hfm, hc⟩
    have : (its.map fun f => piece f (indexAt lead.var f.var idx))
        = (its.map fun f => pairsF f (indexAt lead.var f.var idx)).map Piece.pairs := by
      rw [List.map_map]
      apply List.map_congr_left
      intro f hfm
      rw [pieceF_eq f, hno f hfm]; rfl
    rw [this, collect_pairs]; rfl

theorem rowsF_general {α : Type} (size : String → Nat) (lead : It α) (fs : List (Tree α)) (its : List (It α))
    (hfs : fs.map Tree.it = its.map (attached lead)) (hl : Leads size lead)
    (hf : ∀ f ∈ its, FollowsF size lead f)
    (hskip : lead.allowMasked = true → ∀ f ∈ its, f.allowMasked = true)
    (melted : Option (List String)) (reps : String → List (String × α)) :
    rows (.mk lead fs) melted reps =
      match ((kept lead (lead :: its)).map (recordRowF lead (lead :: its))).mapM (emit (!fs.isEmpty) melted reps) with
      | .error e => .error e
      | .ok out => .ok out.flatten := by
  have hz := zipAll_map (allIdx lead.var.shape) (fun (f : It α) idx => piece f (indexAt lead.var f.var idx)) (lead :: its)
    (by simp)
  have hr : ((allIdx lead.var.shape).map fun x => (lead :: its).map fun f => piece f (indexAt lead.var f.var x)).mapM (record lead)
      = .ok ((allIdx lead.var.shape).map fun idx =>
        if (!lead.allowMasked && (lead :: its).any fun f => asksSkip f (indexAt lead.var f.var idx)) = true then none
        else some (recordRowF lead (lead :: its) idx)) := by
    have := Ocgis.Mpi.mapM_ok (allIdx lead.var.shape)
      (fun idx => record lead ((lead :: its).map fun f => piece f (indexAt lead.var f.var idx))) _
      (fun idx _ => recordF_eq lead (lead :: its) (by
        intro ha f hm
        rcases List.mem_cons.1 hm with rfl | hm
        · exact ha
        · exact hskip ha f hm) idx)
    rw [List.mapM_map]; exact this
  simp only [rows]
  rw [hfs, membersF_pieces size lead hl its hf]
  simp only
  rw [hz, hr]
  simp only
  rw [filterMap_if]
  rfl

/-! ## Dictionaries made of pairs -/

theorem fold_get {β : Type} (ps : List (String × β)) (k : String) (x : β) (h : ∀ y z, (k, y) ∈ ps → (k, z) ∈ ps → y = z) :
    Dict.get? (ps.foldl (fun r p => Dict.set r p.1 p.2) []) k = some x ↔ (k, x) ∈ ps := by
  constructor
  · intro hg
    by_cases hk : ∃ p ∈ ps, p.1 = k
    · obtain ⟨⟨k', y⟩, hp, rfl⟩ := hk
      have := (foldl_set_get ps [] k').1 y (fun q hq he => by
        obtain ⟨q1, q2⟩ := q
        simp only at he
        subst he
        exact h _ _ hq hp) ⟨_, hp, rfl⟩
      rw [this] at hg
      injection hg with hg
      subst hg
      exact hp
    · rw [(foldl_set_get ps [] k).2 (fun p hp he => hk ⟨p, hp, he⟩)] at hg
      simp [Dict.get?] at hg
  · intro hm
    exact (foldl_set_get ps [] k).1 x (fun q hq he => by
      obtain ⟨q1, q2⟩ := q
      simp only at he
      subst he
      exact h _ _ hq hm) ⟨_, hm, rfl⟩

/-- Without agreement of the values: some pair with the name. -/
theorem fold_get_mem {β : Type} (ps : List (String × β)) (k : String) (x : β)
    (h : Dict.get? (ps.foldl (fun r p => Dict.set r p.1 p.2) []) k = some x) : ∃ y, (k, y) ∈ ps := by
  apply Classical.byContradiction
  intro hk
  rw [(foldl_set_get ps [] k).2 (fun p hp he => hk ⟨p.2, by rw [← he]; exact hp⟩)] at h
  simp [Dict.get?] at h

theorem fold_nodup {β : Type} (ps : List (String × β)) (d : Dict β) (hd : (d.map (·.1)).Nodup) :
    ((ps.foldl (fun r p => Dict.set r p.1 p.2) d).map (·.1)).Nodup := by
  induction ps generalizing d with
  | nil => exact hd
  | cons p ps ih => exact ih _ (Dict.nodup_set _ _ _ hd)

theorem mem_iff_get {β : Type} (d : Dict β) (hd : (d.map (·.1)).Nodup) (k : String) (x : β) : (k, x) ∈ d ↔ Dict.get? d k = some x := by
  constructor
  · intro h
    cases hg : Dict.get? d k with
    | none => exact absurd (List.mem_map.2 ⟨_, h, rfl⟩) (Dict.get?_none.1 hg)
    | some y => rw [Dict.mem_unique hd h (Dict.get?_mem hg)]
  · exact Dict.get?_mem

theorem mapped_fold {α : Type} (row : Row α) (m : Dict String) (acc : Row α) :
    mapped false row m acc = .ok ((m.filterMap fun p => (Dict.get? row p.1).map fun c => (p.2, c)).foldl (fun r p => Dict.set r p.1 p.2) acc) := by
  induction m generalizing acc with
  | nil => rfl
  | cons p m ih =>
    obtain ⟨k, v⟩ := p
    simp only [mapped, List.filterMap_cons]
    cases Dict.get? row k with
    | none => simpa using ih acc
    | some c => simpa using ih (Dict.set acc v c)

/-- The header map as pairs. -/
def mapPairs {α : Type} (melted : Bool) (m : Dict String) (row : Row α) : List (String × Cell α) :=
  (m.filterMap fun p => (Dict.get? row p.1).map fun c => (p.2, c)) ++
  (if melted then
    match Dict.get? row "VARIABLE", Dict.get? row "VALUE" with
    | some a, some b => [("VARIABLE", a), ("VALUE", b)]
    | _, _ => []
  else []) ++ row.filter fun p => !Dict.has m p.1

theorem applyMap_fold {α : Type} (melted : Bool) (m : Dict String) (row : Row α)
    (h : melted = true → (∃ a, Dict.get? row "VARIABLE" = some a) ∧ ∃ b, Dict.get? row "VALUE" = some b) :
    applyMap false melted m row = .ok ((mapPairs melted m row).foldl (fun r p => Dict.set r p.1 p.2) []) := by
  unfold applyMap mapPairs
  rw [mapped_fold]
  simp only [List.foldl_append]
  cases melted with
  | false => simp [meltedColumns]
  | true =>
    obtain ⟨⟨a, ha⟩, b, hb⟩ := h rfl
    simp [meltedColumns, ha, hb]

/-- Renaming, in general: `R` repeated columns, `D` columns that keep their names, `M` columns with old and new names, `Y` further names
in the map.  `bad` names are not looked at. -/
theorem rename_get {α : Type} (melted : Bool) (m : Dict String) (row : Row α) (R D : List (String × Cell α)) (M : List (String × String × Cell α))
    (Y : List String) (bad : String → Prop) (hm : (m.map (·.1)).Nodup) (hr : (row.map (·.1)).Nodup)
    (hrow : ∀ k c, ¬ bad k → (Dict.get? row k = some c ↔ (k, c) ∈ R ∨ (k, c) ∈ D ∨ ∃ s, (k, s, c) ∈ M))
    (hmap : ∀ k v, (k, v) ∈ m ↔ (∃ c, (k, c) ∈ R) ∧ v = k ∨ (∃ c, (k, v, c) ∈ M) ∨ (k ∈ Y ∧ v = k))
    (hRM : ∀ k c s c', (k, c) ∈ R → (k, s, c') ∉ M) (hDM : ∀ k c s c', (k, c) ∈ D → (k, s, c') ∉ M)
    (hRD : ∀ k c c', (k, c) ∈ R → (k, c') ∉ D)
    (hDY : ∀ k c, (k, c) ∈ D → k ∉ Y) (hYM : ∀ k s c, k ∈ Y → (k, s, c) ∈ M → s = k)
    (hR : ∀ k c c', ¬ bad k → (k, c) ∈ R → (k, c') ∈ R → c = c') (hD : ∀ k c c', (k, c) ∈ D → (k, c') ∈ D → c = c')
    (hMs : ∀ k k' s c c', (k, s, c) ∈ M → (k', s, c') ∈ M → c = c')
    (hsD : ∀ k s c c', (k, s, c) ∈ M → (s, c') ∉ D) (hsR : ∀ k s c c', (k, s, c) ∈ M → (s, c') ∉ R)
    (hMbad : ∀ k s c, (k, s, c) ∈ M → ¬ bad k)
    (hvar : melted = true → (∃ a, Dict.get? row "VARIABLE" = some a) ∧ (∃ b, Dict.get? row "VALUE" = some b) ∧
      (∀ s, ¬ bad "VARIABLE" ∧ ("VARIABLE", s) ∉ m) ∧ (∀ s, ¬ bad "VALUE" ∧ ("VALUE", s) ∉ m)) :
    ∃ row', applyMap false melted m row = .ok row' ∧ (row'.map (·.1)).Nodup ∧
      ∀ h c, ¬ bad h → (Dict.get? row' h = some c ↔ (h, c) ∈ R ∨ (h, c) ∈ D ∨ ∃ k, (k, h, c) ∈ M) := by
  refine ⟨_, applyMap_fold melted m row (fun he => ⟨(hvar he).1, (hvar he).2.1⟩), fold_nodup _ _ (by simp), ?_⟩
  -- members of the pairs
  have hmem : ∀ h c, (h, c) ∈ mapPairs melted m row ↔
      (∃ k, (k, h) ∈ m ∧ Dict.get? row k = some c) ∨ (Dict.get? row h = some c ∧ ∀ v, (h, v) ∉ m) := by
    intro h c
    have hhas : Dict.has m h = true ↔ ∃ v, (h, v) ∈ m := by
      rw [Dict.has_iff, List.mem_map]
      constructor
      · rintro ⟨⟨a, b⟩, hab, rfl⟩; exact ⟨b, hab⟩
      · rintro ⟨v, hv⟩; exact ⟨_, hv, rfl⟩
    unfold mapPairs
    rw [List.mem_append, List.mem_append, List.mem_filterMap, List.mem_filter, mem_iff_get row hr]
    have e1 : (∃ a ∈ m, (Dict.get? row a.1).map (fun c => (a.2, c)) = some (h, c)) ↔ ∃ k, (k, h) ∈ m ∧ Dict.get? row k = some c := by
      constructor
      · rintro ⟨⟨k, v⟩, hkv, he⟩
        cases hg : Dict.get? row k with
        | none => rw [hg] at he; simp at he
        | some c0 =>
          rw [hg] at he
          simp only [Option.map_some, Option.some.injEq, Prod.mk.injEq] at he
          obtain ⟨rfl, rfl⟩ := he
          exact ⟨k, hkv, hg⟩
      · rintro ⟨k, hk, hg⟩
        exact ⟨(k, h), hk, by rw [hg]; rfl⟩
    rw [e1]
    have e2 : (!Dict.has m h) = true ↔ ∀ v, (h, v) ∉ m := by
      rw [Bool.not_eq_true', ← Bool.not_eq_true, hhas]
      simp
    rw [e2]
    constructor
    · rintro ((h1 | h1) | h1)
      · exact .inl h1
      · cases melted with
        | false => simp at h1
        | true =>
          obtain ⟨⟨a, ha⟩, ⟨b, hb⟩, h2, h3⟩ := hvar rfl
          simp only [if_true, ha, hb, List.mem_cons, Prod.mk.injEq, List.not_mem_nil, or_false] at h1
          rcases h1 with ⟨rfl, rfl⟩ | ⟨rfl, rfl⟩
          · exact .inr ⟨ha, fun v => (h2 v).2⟩
          · exact .inr ⟨hb, fun v => (h3 v).2⟩
      · exact .inr h1
    · rintro (h1 | h1)
      · exact .inl (.inl h1)
      · exact .inr h1
  -- what they are
  have key : ∀ h c, ¬ bad h → ((h, c) ∈ mapPairs melted m row ↔ (h, c) ∈ R ∨ (h, c) ∈ D ∨ ∃ k, (k, h, c) ∈ M) := by
    intro h c hb
    rw [hmem]
    constructor
    · rintro (⟨k, hk, hg⟩ | ⟨hg, hv⟩)
      · rcases (hmap k h).1 hk with ⟨-, rfl⟩ | ⟨c', hc'⟩ | ⟨hY, rfl⟩
        · rcases (hrow h c hb).1 hg with h1 | h1 | ⟨s, h1⟩
          · exact .inl h1
          · exact .inr (.inl h1)
          · have : (h, s) ∈ m := (hmap h s).2 (.inr (.inl ⟨c, h1⟩))
            have hs : s = h := by
              have a1 := (mem_iff_get m hm _ _).1 this
              have a2 := (mem_iff_get m hm _ _).1 hk
              rw [a1] at a2; injection a2
            subst hs
            exact .inr (.inr ⟨s, h1⟩)
        · rcases (hrow k c (hMbad k h c' hc')).1 hg with h1 | h1 | ⟨s, h1⟩
          · exact absurd hc' (hRM k c h c' h1)
          · exact absurd hc' (hDM k c h c' h1)
          · have : (k, s) ∈ m := (hmap k s).2 (.inr (.inl ⟨c, h1⟩))
            have hs : s = h := by
              have a1 := (mem_iff_get m hm _ _).1 this
              have a2 := (mem_iff_get m hm _ _).1 hk
              rw [a1] at a2; injection a2
            subst hs
            exact .inr (.inr ⟨k, h1⟩)
        · rcases (hrow h c hb).1 hg with h1 | h1 | ⟨s, h1⟩
          · exact .inl h1
          · exact .inr (.inl h1)
          · have hs := hYM h s c hY h1
            subst hs
            exact .inr (.inr ⟨s, h1⟩)
      · rcases (hrow h c hb).1 hg with h1 | h1 | ⟨s, h1⟩
        · exact .inl h1
        · exact .inr (.inl h1)
        · exact absurd ((hmap h s).2 (.inr (.inl ⟨c, h1⟩))) (hv s)
    · rintro (h1 | h1 | ⟨k, h1⟩)
      · exact .inl ⟨h, (hmap h h).2 (.inl ⟨⟨c, h1⟩, rfl⟩), (hrow h c hb).2 (.inl h1)⟩
      · refine .inr ⟨(hrow h c hb).2 (.inr (.inl h1)), ?_⟩
        intro v hv
        rcases (hmap h v).1 hv with ⟨⟨c', hc'⟩, -⟩ | ⟨c', hc'⟩ | ⟨hY, -⟩
        · exact hRD h c' c hc' h1
        · exact hDM h c v c' h1 hc'
        · exact hDY h c h1 hY
      · exact .inl ⟨k, (hmap k h).2 (.inr (.inl ⟨c, h1⟩)), (hrow k c (hMbad k h c h1)).2 (.inr (.inr ⟨h, h1⟩))⟩
  intro h c hb
  rw [fold_get _ _ _ ?_, key h c hb]
  intro y z hy hz
  rw [key h y hb] at hy
  rw [key h z hb] at hz
  rcases hy with h1 | h1 | ⟨k, h1⟩ <;> rcases hz with h2 | h2 | ⟨k', h2⟩
  · exact hR _ _ _ hb h1 h2
  · exact absurd h2 (hRD _ _ _ h1)
  · exact absurd h1 (hsR _ _ _ _ h2)
  · exact absurd h1 (hRD _ _ _ h2)
  · exact hD _ _ _ h1 h2
  · exact absurd h1 (hsD _ _ _ _ h2)
  · exact absurd h2 (hsR _ _ _ _ h1)
  · exact absurd h2 (hsD _ _ _ _ h1)
  · exact hMs _ _ _ _ _ h1 h2

end Ocgis.FieldIter
