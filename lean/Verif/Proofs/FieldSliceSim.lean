import Verif.Proofs.FieldSlice

namespace Ocgis.Props
open Ocgis Ocgis.DictSlice Ocgis.Scopes Ocgis.FieldSlice Ocgis.Spec

/-! ## Slices under other names -/

def renDim (s : String) (D : Dim) : Dim := { D with name := s }

theorem setSrcIdx_ren (s : String) (D : Dim) (v : Option SrcIdx) : (renDim s D).setSrcIdx v = (D.setSrcIdx v).map (renDim s) := by
  unfold Dim.setSrcIdx
  have hl : (renDim s D).len = D.len := rfl
  cases v with
  | none => rfl
  | some v =>
    cases v with
    | bounds a b =>
      simp only [hl]
      split <;> rfl
    | fancy xs =>
      simp only [hl]
      split <;> rfl

theorem setSize_ren (s : String) (D : Dim) (n : Int) (v : Option SrcIdx) : (renDim s D).setSize n v = (D.setSize n v).map (renDim s) := by
  unfold Dim.setSize
  exact setSrcIdx_ren s { D with
    boundsLocal? := none
    sizeCurrent := some n
    size := match D.size with
      | none => none
      | some _ => some n } v

theorem getitem_ren (s : String) (D : Dim) (i : RawIndex) : (renDim s D).getitem i = (D.getitem i).map (renDim s) := by
  unfold Dim.getitem
  have hl : (renDim s D).len = D.len := rfl
  have hs : (renDim s D).srcIdx = D.srcIdx := rfl
  rw [hl, hs]
  by_cases h1 : D.len < 0
  · simp only [h1, if_true]; rfl
  · by_cases h2 : D.len = 0
    · simp only [h2, if_true]; rfl
    · simp only [h1, h2, if_false]
      cases formatSlice i with
      | error e => rfl
      | ok f =>
        show ((Dim.sliceSourceIndex f D.srcIdx).bind fun src => (renDim s D).setSize (Dim.sliceLength D.len f) src) =
          ((Dim.sliceSourceIndex f D.srcIdx).bind fun src => D.setSize (Dim.sliceLength D.len f) src).map (renDim s)
        cases Dim.sliceSourceIndex f D.srcIdx with
        | error e => rfl
        | ok src => exact setSize_ren s D _ src

theorem renDim_self (D : Dim) : renDim D.name D = D := rfl

theorem getitem_name (D D' : Dim) (i : RawIndex) (h : D.getitem i = .ok D') : D'.name = D.name := by
  have := getitem_ren D.name D i
  rw [renDim_self, h] at this
  have := Except.ok.inj this
  rw [this]
  rfl

/-- The same dimensions under other names. -/
def SameUnder (σ : String → String) (N : List String) (d1 d2 : Assoc Dim) : Prop :=
  ∀ n ∈ N, find d1 (σ n) = (find d2 n).map (renDim (σ n))

def SlicesUnder (σ : String → String) (N : List String) (d d' : Assoc RawIndex) : Prop :=
  List.Forall₂ (fun p q => p.2 = q.2 ∧ q.1 ∈ N ∧ p.1 = σ q.1) d d'

theorem find_under {σ : String → String} {N : List String} (hσ : ∀ a b, a ∈ N → b ∈ N → σ a = σ b → a = b) {d d' : Assoc RawIndex}
    (h : SlicesUnder σ N d d') (n : String) (hn : n ∈ N) : find d (σ n) = find d' n := by
  unfold SlicesUnder at h
  induction h with
  | nil => rfl
  | cons h1 _ ih =>
    rename_i p q _ _ _
    obtain ⟨h2, h3, h4⟩ := h1
    rw [find_cons, find_cons, ih, h4, h2]
    by_cases hq : q.1 = n
    · rw [hq, if_pos rfl, if_pos rfl]
    · rw [if_neg hq, if_neg fun he => hq (hσ _ _ h3 hn he)]

theorem sliceDims_keys (all : Assoc Dim) (d : Assoc RawIndex) : ∀ (acc r : Assoc Dim), sliceDims all d acc = .ok r → r.map (·.1) = acc.map (·.1) := by
  induction d with
  | nil =>
    intro acc r h
    cases h
    rfl
  | cons p d ih =>
    intro acc r h
    obtain ⟨n, s⟩ := p
    unfold sliceDims at h
    cases hf : find all n with
    | none => rw [hf] at h; cases h
    | some D =>
      rw [hf] at h
      cases hg : D.getitem s with
      | error e => simp only [hg] at h; cases h
      | ok D' =>
        simp only [hg] at h
        rw [ih _ _ h, put_keys]

theorem sliceDims_sim {σ : String → String} {N : List String} (hσ : ∀ a b, a ∈ N → b ∈ N → σ a = σ b → a = b) {all1 all2 : Assoc Dim}
    (ha : SameUnder σ N all1 all2) {d d' : Assoc RawIndex} (h : SlicesUnder σ N d d') : ∀ (acc1 acc2 : Assoc Dim), SameUnder σ N acc1 acc2 →
    (∀ e, sliceDims all2 d' acc2 = .error e → sliceDims all1 d acc1 = .error e) ∧
    ∀ r2, sliceDims all2 d' acc2 = .ok r2 → ∃ r1, sliceDims all1 d acc1 = .ok r1 ∧ SameUnder σ N r1 r2 := by
  unfold SlicesUnder at h
  induction h with
  | nil =>
    intro acc1 acc2 hacc
    refine ⟨fun e h => (by cases h), fun r2 h => ?_⟩
    cases h
    exact ⟨acc1, rfl, hacc⟩
  | cons h1 _ ih =>
    rename_i p q l1 l2 _
    intro acc1 acc2 hacc
    obtain ⟨n, s⟩ := p
    obtain ⟨n', s'⟩ := q
    obtain ⟨h2, h3, h4⟩ := h1
    simp only at h2 h3 h4
    subst h2
    subst h4
    unfold sliceDims
    rw [ha n' h3]
    cases hf : find all2 n' with
    | none => exact ⟨fun e h => h, fun r h => by cases h⟩
    | some D =>
      simp only [Option.map_some, getitem_ren]
      cases hg : D.getitem s with
      | error e => exact ⟨fun e h => h, fun r h => by cases h⟩
      | ok D' =>
        refine ih (put acc1 (σ n') (renDim (σ n') D')) (put acc2 n' D') fun n hn => ?_
        rw [find_put, find_put]
        by_cases hx : n = n'
        · subst hx
          rw [if_pos rfl, if_pos rfl, hacc n hn]
          cases find acc2 n <;> rfl
        · rw [if_neg hx, if_neg fun he => hx (hσ _ _ hn h3 he), hacc n hn]

/-- The variable with other names for its dimensions. -/
def renVar {α : Type} (σ : String → String) (kv : String × DVar α) : String × DVar α := (kv.1, { kv.2 with names := kv.2.names.map σ })

theorem dictSliceVar_names {α : Type} (d : Assoc RawIndex) (v w : DVar α) (h : dictSliceVar d v = .ok w) : w.names = v.names := by
  unfold dictSliceVar at h
  split at h
  · unfold sliceVar at h
    cases h1 : (v.names.map fun n => (find d n).getD (.slice PySlice.all)).mapM formatSlice with
    | error e => rw [h1] at h; cases h
    | ok fs =>
      rw [h1] at h
      cases h2 : sliceArr fs v.shape v.value with
      | error e => simp only [h2] at h; cases h
      | ok a =>
        cases h3 : sliceMask fs v.shape v.mask with
        | error e => simp only [h2, h3] at h; cases h
        | ok m =>
          simp only [h2, h3] at h
          cases h
          rfl
  · cases h
    rfl

theorem dictSliceVar_sim {α : Type} {σ : String → String} {N : List String} (hσ : ∀ a b, a ∈ N → b ∈ N → σ a = σ b → a = b)
    {d d' : Assoc RawIndex} (h : SlicesUnder σ N d d') (v : DVar α) (hv : ∀ n ∈ v.names, n ∈ N) :
    dictSliceVar d { v with names := v.names.map σ } = (dictSliceVar d' v).map fun w => { w with names := w.names.map σ } := by
  have hf : ∀ n ∈ v.names, find d (σ n) = find d' n := fun n hn => find_under hσ h n (hv n hn)
  unfold dictSliceVar
  have hany : (v.names.map σ).any (fun n => (find d n).isSome) = v.names.any fun n => (find d' n).isSome := by
    rw [List.any_map]
    apply Bool.eq_iff_iff.2
    simp only [List.any_eq_true]
    exact ⟨fun ⟨n, h1, h2⟩ => ⟨n, h1, by simpa [hf n h1] using h2⟩, fun ⟨n, h1, h2⟩ => ⟨n, h1, by simpa [hf n h1] using h2⟩⟩
  have hmap : ((v.names.map σ).map fun n => (find d n).getD (.slice PySlice.all)) = v.names.map fun n => (find d' n).getD (.slice PySlice.all) := by
    rw [List.map_map]
    apply List.map_congr_left
    intro n hn
    simp [hf n hn]
  rw [hany, hmap]
  split
  · unfold sliceVar
    cases (v.names.map fun n => (find d' n).getD (.slice PySlice.all)).mapM formatSlice with
    | error e => rfl
    | ok fs =>
      simp only
      cases sliceArr fs v.shape v.value with
      | error e => rfl
      | ok a =>
        simp only
        cases sliceMask fs v.shape v.mask with
        | error e => rfl
        | ok m => rfl
  · rfl

theorem sliceVars_sim {α : Type} {σ : String → String} {N : List String} (hσ : ∀ a b, a ∈ N → b ∈ N → σ a = σ b → a = b)
    {d d' : Assoc RawIndex} (h : SlicesUnder σ N d d') (vs : Assoc (DVar α)) (hv : ∀ k v, (k, v) ∈ vs → ∀ n ∈ v.names, n ∈ N) :
    sliceVars d (vs.map (renVar σ)) = (sliceVars d' vs).map (List.map (renVar σ)) := by
  induction vs with
  | nil => rfl
  | cons kv vs ih =>
    obtain ⟨k, v⟩ := kv
    have h1 := dictSliceVar_sim hσ h v (hv k v (by simp))
    have h2 := ih fun k v hm => hv k v (List.mem_cons_of_mem _ hm)
    rw [List.map_cons]
    show sliceVars d ((k, { v with names := v.names.map σ }) :: vs.map (renVar σ)) = _
    unfold sliceVars
    rw [h1, h2]
    cases dictSliceVar d' v with
    | error e => rfl
    | ok w =>
      cases sliceVars d' vs with
      | error e => rfl
      | ok r => rfl

theorem vars_back {α : Type} (σ : String → String) (d : Assoc RawIndex) (vs : Assoc (DVar α)) : ∀ r, sliceVars d vs = .ok r →
    (r.map (renVar σ)).zipWith (fun kv kw => (kv.1, { kv.2 with names := kw.2.names })) vs = r := by
  induction vs with
  | nil =>
    intro r h
    cases h
    rfl
  | cons kv vs ih =>
    intro r h
    obtain ⟨k, v⟩ := kv
    unfold sliceVars at h
    cases h1 : dictSliceVar d v with
    | error e => rw [h1] at h; cases h
    | ok w =>
      cases h2 : sliceVars d vs with
      | error e => simp only [h1, h2] at h; cases h
      | ok r' =>
        simp only [h1, h2] at h
        cases h
        rw [List.map_cons, List.zipWith_cons_cons, ih r' h2]
        have := dictSliceVar_names d v w h1
        simp only [renVar, ← this]

/-! ## Names restored -/

theorem restoreNames_other (h : Heap) (dims : List (String × Nat)) (i : Nat) (hi : i ∉ dims.map (·.2)) : restoreNames h dims i = h i := by
  induction dims generalizing h with
  | nil => rfl
  | cons p dims ih =>
    obtain ⟨k, v⟩ := p
    simp only [List.map_cons, List.mem_cons, not_or] at hi
    unfold restoreNames
    rw [ih _ hi.2]
    exact if_neg hi.1

theorem restoreNames_of (h : Heap) (dims : List (String × Nat)) (hd : (dims.map (·.2)).Nodup) (n : String) (i : Nat) (hm : (n, i) ∈ dims) :
    restoreNames h dims i = n := by
  induction dims generalizing h with
  | nil => cases hm
  | cons p dims ih =>
    obtain ⟨k, v⟩ := p
    simp only [List.map_cons, List.nodup_cons] at hd
    unfold restoreNames
    rcases List.mem_cons.1 hm with h1 | h1
    · obtain ⟨rfl, rfl⟩ := Prod.mk.inj h1
      rw [restoreNames_other _ _ _ hd.1]
      exact if_pos rfl
    · exact ih _ hd.2 h1

/-! ## The names of the returned dimensions -/

theorem fold_none (k : String) (refs : Assoc String) (s : Assoc RDim × Heap) (h : ∀ ref ∈ refs, ¬ (k = ref.2 ∧ ref.1 ≠ ref.2)) :
    refs.foldl (revertRef k) s = s := by
  induction refs generalizing s with
  | nil => rfl
  | cons ref refs ih =>
    rw [List.foldl_cons]
    have : revertRef k s ref = s := by
      unfold revertRef
      rw [if_neg (h ref (by simp))]
    rw [this]
    exact ih s fun r hr => h r (List.mem_cons_of_mem _ hr)

theorem fold_one (k a : String) (refs : Assoc String) (s : Assoc RDim × Heap) (hk : (refs.map (·.1)).Nodup) (hm : (a, k) ∈ refs)
    (hu : ∀ ref ∈ refs, k = ref.2 ∧ ref.1 ≠ ref.2 → ref.1 = a) : refs.foldl (revertRef k) s = revertRef k s (a, k) := by
  induction refs generalizing s with
  | nil => cases hm
  | cons ref refs ih =>
    rw [List.foldl_cons]
    simp only [List.map_cons, List.nodup_cons] at hk
    rcases List.mem_cons.1 hm with h1 | h1
    · subst h1
      refine fold_none k refs _ fun r hr hc => hk.1 ?_
      have := hu r (List.mem_cons_of_mem _ hr) hc
      exact List.mem_map.2 ⟨r, hr, this⟩
    · have : revertRef k s ref = s := by
        unfold revertRef
        rw [if_neg]
        intro hc
        have := hu ref (by simp) hc
        exact hk.1 (List.mem_map.2 ⟨_, h1, this.symm⟩)
      rw [this]
      exact ih s hk.2 h1 fun r hr => hu r (List.mem_cons_of_mem _ hr)

/-- While names are given back. -/
structure Reverting (σ : String → String) (orig : List (String × Nat)) (left : Assoc RDim) (done : List String) (s : Assoc RDim × Heap) : Prop where
  keys : (s.1.map (·.1)).Nodup
  old : ∀ n ∈ orig.map (·.1), find s.1 (σ n) = find left (σ n)
  given : ∀ n ∈ orig.map (·.1), σ n ≠ n → σ n ∈ done → ∃ R, find left (σ n) = some R ∧ find s.1 n = some ⟨R.shared, { R.dim with name := n }⟩
  notYet : ∀ n ∈ orig.map (·.1), σ n ≠ n → σ n ∉ done → n ∉ s.1.map (·.1)
  only : ∀ k ∈ s.1.map (·.1), (∃ n ∈ orig.map (·.1), k = σ n) ∨ k ∈ orig.map (·.1)
  heap : ∀ n i, (n, i) ∈ orig → s.2 i = n

theorem revert_step {m : NameMapping} {orig : List (String × Nat)} (hr : Renames m (orig.map (·.1)))
    (hi : (orig.map (·.2)).Nodup) {rs : Heap × Assoc String} (hrs : RefsSoFar m orig rs) (left : Assoc RDim)
    (hl2 : ∀ n i, (n, i) ∈ orig → ∃ R, find left (newName m n) = some R ∧ (R.shared = none ∨ R.shared = some i))
    (done : List String) (s : Assoc RDim × Heap) (hs : Reverting (newName m) orig left done s) (k : String) (hk : k ∉ done)
    (hkl : ∃ n ∈ orig.map (·.1), k = newName m n) : Reverting (newName m) orig left (k :: done) (rs.2.foldl (revertRef k) s) := by
  obtain ⟨n, hn, rfl⟩ := hkl
  obtain ⟨⟨n_, i⟩, hni, hne⟩ := List.mem_map.1 hn
  simp only at hne
  subst hne
  have hrefs : ∀ ref ∈ rs.2, newName m n_ = ref.2 → ref.1 = n_ := by
    rintro ⟨a, b⟩ hab he
    simp only at he ⊢
    obtain ⟨h1, o, h2, h3⟩ := (hrs.refs a b).1 hab
    have h4 := newName_listed hr h1 h2 h3
    exact newName_inj hr h1 hn (h4.trans he.symm)
  by_cases hsame : newName m n_ = n_
  · rw [fold_none]
    · refine ⟨hs.keys, hs.old, fun a ha hx hd => ?_, fun a ha hx hd => hs.notYet a ha hx fun h => hd (List.mem_cons_of_mem _ h), hs.only, hs.heap⟩
      rcases List.mem_cons.1 hd with h | h
      · have := newName_inj hr ha hn h
        subst this
        exact absurd hsame hx
      · exact hs.given a ha hx h
    · rintro ref hm ⟨h1, h2⟩
      have := hrefs ref hm h1
      rw [this, ← h1, hsame] at h2
      exact h2 rfl
  · have hin : (n_, newName m n_) ∈ rs.2 := by
      rw [hrs.refs]
      rcases newName_cases m n_ with ⟨o, h1, h2⟩ | ⟨h1, -⟩
      · exact ⟨hn, o, h1, h2⟩
      · exact absurd h1 hsame
    rw [fold_one _ n_ _ _ hrs.keys hin fun ref hm hc => hrefs ref hm hc.1]
    obtain ⟨R, hR, hsh⟩ := hl2 n_ i hni
    have hfs := hs.old n_ hn
    rw [hR] at hfs
    unfold revertRef
    rw [if_pos ⟨rfl, Ne.symm hsame⟩, hfs]
    simp only
    have hfresh := hs.notYet n_ hn hsame hk
    refine ⟨?_, fun a ha => ?_, fun a ha hx hd => ?_, fun a ha hx hd => ?_, fun a ha => ?_, fun a j ha => ?_⟩
    · rw [assign_fresh _ _ _ hfresh, List.map_append, List.nodup_append]
      refine ⟨hs.keys, by simp, ?_⟩
      intro x hx y hy he
      simp only [List.map_cons, List.map_nil, List.mem_singleton] at hy
      subst hy
      subst he
      exact hfresh hx
    · simp only
      rw [find_assign, if_neg, hs.old a ha]
      intro he
      have := newName_free hr hn ha he
      subst this
      exact hsame he
    · simp only
      rw [find_assign]
      by_cases hx' : a = n_
      · subst hx'
        exact ⟨R, hR, by rw [if_pos rfl]⟩
      · rw [if_neg hx']
        rcases List.mem_cons.1 hd with h | h
        · exact absurd (newName_inj hr ha hn h) hx'
        · exact hs.given a ha hx h
    · simp only
      rw [assign_fresh _ _ _ hfresh, List.map_append, List.mem_append, not_or]
      refine ⟨hs.notYet a ha hx fun h => hd (List.mem_cons_of_mem _ h), ?_⟩
      simp only [List.map_cons, List.map_nil, List.mem_singleton]
      rintro rfl
      exact hd (by simp)
    · simp only at ha
      rw [assign_fresh _ _ _ hfresh, List.map_append, List.mem_append] at ha
      rcases ha with h | h
      · exact hs.only a h
      · simp only [List.map_cons, List.map_nil, List.mem_singleton] at h
        subst h
        exact .inr hn
    · rcases hsh with h | h
      · simp only [h]
        exact hs.heap a j ha
      · simp only [h]
        show (if j = i then n_ else s.2 j) = a
        by_cases hx : j = i
        · subst hx
          rw [if_pos rfl]
          obtain ⟨x, hx, hxe⟩ := List.getElem_of_mem ha
          obtain ⟨y, hy, hye⟩ := List.getElem_of_mem hni
          have hxy : x = y := by
            refine (List.getElem_inj (h₀ := by simpa using hx) (h₁ := by simpa using hy) hi).1 ?_
            simp [hxe, hye]
          subst hxy
          rw [hxe] at hye
          exact (Prod.mk.inj hye).1.symm
        · rw [if_neg hx]
          exact hs.heap a j ha

theorem revert_loop {m : NameMapping} {orig : List (String × Nat)} (hr : Renames m (orig.map (·.1)))
    (hi : (orig.map (·.2)).Nodup) {rs : Heap × Assoc String} (hrs : RefsSoFar m orig rs) (left : Assoc RDim)
    (hl2 : ∀ n i, (n, i) ∈ orig → ∃ R, find left (newName m n) = some R ∧ (R.shared = none ∨ R.shared = some i)) :
    ∀ (ks done : List String) (s : Assoc RDim × Heap), Reverting (newName m) orig left done s → ks.Nodup → (∀ k ∈ ks, k ∉ done) →
    (∀ k ∈ ks, ∃ n ∈ orig.map (·.1), k = newName m n) → ∃ done', (∀ k, k ∈ ks ∨ k ∈ done → k ∈ done') ∧
      Reverting (newName m) orig left done' (revertDims rs.2 ks s) := by
  intro ks
  induction ks with
  | nil => exact fun done s hs _ _ _ => ⟨done, fun k h => by simpa using h, hs⟩
  | cons k ks ih =>
    intro done s hs hnd hdone hkl
    simp only [List.nodup_cons] at hnd
    have h1 := revert_step hr hi hrs left hl2 done s hs k (hdone k (by simp)) (hkl k (by simp))
    obtain ⟨done', h2, h3⟩ := ih (k :: done) _ h1 hnd.2 (fun x hx => by
      rw [List.mem_cons, not_or]
      exact ⟨fun he => hnd.1 (he ▸ hx), hdone x (List.mem_cons_of_mem _ hx)⟩) fun x hx => hkl x (List.mem_cons_of_mem _ hx)
    refine ⟨done', fun x hx => h2 x ?_, h3⟩
    rcases hx with hx | hx
    · rcases List.mem_cons.1 hx with h | h
      · exact .inr (by simp [h])
      · exact .inl h
    · exact .inr (List.mem_cons_of_mem _ hx)

theorem revert_spec {m : NameMapping} {orig : List (String × Nat)} (hr : Renames m (orig.map (·.1)))
    (hi : (orig.map (·.2)).Nodup) {rs : Heap × Assoc String} (hrs : RefsSoFar m orig rs) (left : Assoc RDim) (hlk : (left.map (·.1)).Nodup)
    (hl1 : ∀ k ∈ left.map (·.1), ∃ n ∈ orig.map (·.1), k = newName m n)
    (hl2 : ∀ n i, (n, i) ∈ orig → ∃ R, find left (newName m n) = some R ∧ (R.shared = none ∨ R.shared = some i))
    (h : Heap) (hh : ∀ n i, (n, i) ∈ orig → h i = n) :
    (∀ n i, (n, i) ∈ orig → ∃ R, find left (newName m n) = some R ∧
      find (revert rs.2 left h).1 n = some (if newName m n = n then R else ⟨R.shared, { R.dim with name := n }⟩)) ∧
    (∀ k ∈ (revert rs.2 left h).1.map (·.1), k ∈ orig.map (·.1)) ∧ ((revert rs.2 left h).1.map (·.1)).Nodup ∧
    ∀ n i, (n, i) ∈ orig → (revert rs.2 left h).2 i = n := by
  have h0 : Reverting (newName m) orig left [] (left, h) := by
    refine ⟨hlk, fun n _ => rfl, fun n _ _ hd => (by cases hd), fun n hn hx _ hk => ?_, fun k hk => .inl (hl1 k hk), hh⟩
    obtain ⟨n', h1, h2⟩ := hl1 n hk
    have := newName_free hr hn h1 h2.symm
    subst this
    exact hx h2.symm
  obtain ⟨done, h1, h2⟩ := revert_loop hr hi hrs left hl2 (left.map (·.1)) [] (left, h) h0 hlk (fun _ _ h => by cases h) hl1
  have hsw : ∀ n ∈ orig.map (·.1), (((left.map (·.1)).filter (swapped rs.2)).contains n) = false := by
    intro n hn
    rw [← Bool.not_eq_true]
    intro hc
    rw [List.contains_iff_mem, List.mem_filter] at hc
    obtain ⟨hk, hs⟩ := hc
    unfold swapped at hs
    obtain ⟨⟨a, b⟩, h3, h4⟩ := List.any_eq_true.1 hs
    simp only [Bool.and_eq_true, beq_iff_eq, bne_iff_ne] at h4
    obtain ⟨rfl, h5⟩ := h4
    obtain ⟨h6, o, h7, h8⟩ := (hrs.refs a n).1 h3
    exact h5 (hr.free a n o h6 hn h7 h8).symm
  unfold revert
  refine ⟨fun n i hm => ?_, fun k hk => ?_, h2.keys.sublist (List.filter_sublist.map _), h2.heap⟩
  · obtain ⟨R, hR, -⟩ := hl2 n i hm
    have hn : n ∈ orig.map (·.1) := List.mem_map.2 ⟨_, hm, rfl⟩
    refine ⟨R, hR, ?_⟩
    simp only
    have hff := find_filter (revertDims rs.2 (left.map (·.1)) (left, h)).1 (fun k => !((left.map (·.1)).filter (swapped rs.2)).contains k) n
    simp only [hsw n hn, Bool.not_false, if_true] at hff
    refine Eq.trans hff ?_
    by_cases hx : newName m n = n
    · rw [if_pos hx]
      have := h2.old n hn
      rw [hx] at this hR
      rw [this, hR]
    · rw [if_neg hx]
      obtain ⟨R', h3, h4⟩ := h2.given n hn hx (h1 _ (.inl ((find_isSome _ _).1 ⟨R, hR⟩)))
      rw [hR] at h3
      cases h3
      exact h4
  · obtain ⟨⟨a, R⟩, h3, h4⟩ := List.mem_map.1 hk
    simp only at h4
    subst h4
    obtain ⟨h5, h6⟩ := List.mem_filter.1 h3
    rcases h2.only a (List.mem_map.2 ⟨_, h5, rfl⟩) with ⟨n, h7, h8⟩ | h7
    · by_cases hx : newName m n = n
      · rw [h8, hx]
        exact h7
      · exfalso
        have h9 : a ∈ left.map (·.1) := by
          obtain ⟨⟨b, j⟩, hb, hbe⟩ := List.mem_map.1 h7
          simp only at hbe
          subst hbe
          obtain ⟨R', hR', -⟩ := hl2 b j hb
          rw [h8]
          exact (find_isSome _ _).1 ⟨R', hR'⟩
        have h10 : swapped rs.2 a = true := by
          unfold swapped
          refine List.any_eq_true.2 ⟨(n, newName m n), ?_, ?_⟩
          · rw [hrs.refs]
            rcases newName_cases m n with ⟨o, h1, h2⟩ | ⟨h1, -⟩
            · exact ⟨h7, o, h1, h2⟩
            · exact absurd h1 hx
          · simp [h8, Ne.symm hx]
        have h11 : ((left.map (·.1)).filter (swapped rs.2)).contains a = true := by
          rw [List.contains_iff_mem, List.mem_filter]
          exact ⟨h9, h10⟩
        simp only [h11, Bool.not_true] at h6
        cases h6
    · exact h7

/-! ## The dimensions left after the scope -/

theorem left_keys (g : String × Dim → String × Nat → RDim) (dims : Assoc Dim) : ∀ (cd : List (String × Nat)), dims.map (·.1) = cd.map (·.1) →
    (dims.zipWith (fun kd ki => (kd.1, g kd ki)) cd).map (·.1) = cd.map (·.1) := by
  induction dims with
  | nil => intro cd h; cases cd with
    | nil => rfl
    | cons c cd => simp at h
  | cons a dims ih => intro cd h; cases cd with
    | nil => simp at h
    | cons c cd =>
      simp only [List.map_cons, List.cons.injEq] at h
      simp [ih cd h.2, h.1]

theorem left_find (g : String × Dim → String × Nat → RDim) (dims : Assoc Dim) : ∀ (cd : List (String × Nat)), dims.map (·.1) = cd.map (·.1) →
    (cd.map (·.1)).Nodup → ∀ k i D, (k, i) ∈ cd → find dims k = some D →
    find (dims.zipWith (fun kd ki => (kd.1, g kd ki)) cd) k = some (g (k, D) (k, i)) := by
  induction dims with
  | nil => intro cd _ _ k i D _ h; cases h
  | cons a dims ih =>
    intro cd h hnd k i D hm hf
    cases cd with
    | nil => simp at h
    | cons c cd =>
      simp only [List.map_cons, List.cons.injEq] at h
      simp only [List.map_cons, List.nodup_cons] at hnd
      rw [List.zipWith_cons_cons, find_cons]
      rw [find_cons] at hf
      simp only
      by_cases hx : a.1 = k
      · rw [if_pos hx] at hf ⊢
        cases hf
        rcases List.mem_cons.1 hm with h1 | h1
        · subst h1
          obtain ⟨x, y⟩ := a
          simp only at hx
          subst hx
          rfl
        · exfalso
          rw [h.1] at hx
          exact hnd.1 (List.mem_map.2 ⟨_, h1, hx.symm⟩)
      · rw [if_neg hx] at hf ⊢
        refine ih cd h.2 hnd.2 k i D ?_ hf
        rcases List.mem_cons.1 hm with h1 | h1
        · rw [h.1] at hx
          rw [← h1] at hx
          exact absurd rfl hx
        · exact h1

end Ocgis.Props
