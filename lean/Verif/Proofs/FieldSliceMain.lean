import Verif.Proofs.FieldSliceSim
import Verif.Proofs.SourceRead

namespace Ocgis.Props
open Ocgis Ocgis.DictSlice Ocgis.Scopes Ocgis.FieldSlice Ocgis.Spec

/-! ## The mapping of a field -/

theorem sliceKeys_nodup (dmap : Assoc DmEntry) : (sliceKeys dmap).Nodup := by
  unfold sliceKeys
  split <;> decide

theorem gives_iff (dmap : Assoc DmEntry) (k n : String) : GivesName dmap k n ↔ ∃ o, (k, o) ∈ nameMapping dmap ∧ n ∈ o := by
  have hkey : k ∈ sliceKeys dmap ↔ (k ∈ ["realization", "time", "level", "y", "x"] ∨ k = "geom" ∧ ∃ e x, find dmap "geom" = some e ∧ e.dims = [x]) := by
    unfold sliceKeys
    rw [List.mem_append]
    have : (entryOf dmap "geom").dims.length = 1 ↔ ∃ e x, find dmap "geom" = some e ∧ e.dims = [x] := by
      unfold entryOf
      cases hf : find dmap "geom" with
      | none => simp
      | some e =>
        simp only [Option.getD_some, Option.some.injEq, exists_and_left, exists_eq_left']
        exact List.length_eq_one_iff
    by_cases h : (entryOf dmap "geom").dims.length = 1
    · rw [if_pos h, List.mem_singleton]
      simp only [this.1 h, and_true]
    · rw [if_neg h]
      have h' : ¬ ∃ e x, find dmap "geom" = some e ∧ e.dims = [x] := fun hx => h (this.2 hx)
      constructor
      · rintro (hx | hx)
        · exact .inl hx
        · cases hx
      · rintro (hx | hx)
        · exact .inl hx
        · exact absurd hx.2 h'
  have hmem : ∀ o, (k, o) ∈ nameMapping dmap ↔ k ∈ sliceKeys dmap ∧ listed (entryOf dmap k) = some o := by
    intro o
    unfold nameMapping
    rw [List.mem_filterMap]
    constructor
    · rintro ⟨a, h1, h2⟩
      cases hl : listed (entryOf dmap a) with
      | none => rw [hl] at h2; cases h2
      | some ds =>
        rw [hl] at h2
        simp only [Option.map_some, Option.some.injEq, Prod.mk.injEq] at h2
        obtain ⟨rfl, rfl⟩ := h2
        exact ⟨h1, hl⟩
    · rintro ⟨h1, h2⟩
      exact ⟨k, h1, by rw [h2]; rfl⟩
  unfold GivesName
  rw [← hkey]
  constructor
  · rintro ⟨h1, e, v, h2, h3, h4⟩
    have he : entryOf dmap k = e := by simp [entryOf, h2]
    refine ⟨if e.dims.isEmpty then [v] else e.dims, (hmem _).2 ⟨h1, by simp [he, listed, h3]⟩, ?_⟩
    rcases h4 with h4 | ⟨h4, h5⟩
    · rw [if_neg]
      · exact h4
      · intro h
        rw [List.isEmpty_iff] at h
        rw [h] at h4
        cases h4
    · rw [if_pos (by simp [h4]), h5]
      simp
  · rintro ⟨o, h1, h2⟩
    obtain ⟨h3, h4⟩ := (hmem o).1 h1
    refine ⟨h3, ?_⟩
    unfold entryOf at h4
    cases hf : find dmap k with
    | none =>
      rw [hf] at h4
      simp [listed] at h4
    | some e =>
      rw [hf] at h4
      simp only [Option.getD_some, listed, Option.map_eq_some_iff] at h4
      obtain ⟨v, h5, h6⟩ := h4
      refine ⟨e, v, rfl, h5, ?_⟩
      by_cases he : e.dims = []
      · right
        rw [if_pos (by simp [he])] at h6
        subst h6
        exact ⟨he, by simpa using h2⟩
      · left
        rw [if_neg (by simpa [List.isEmpty_iff] using he)] at h6
        subst h6
        exact h2

theorem nameMapping_keys (dmap : Assoc DmEntry) : ((nameMapping dmap).map (·.1)).Nodup := by
  have h : (nameMapping dmap).map (·.1) = (sliceKeys dmap).filter fun k => (listed (entryOf dmap k)).isSome := by
    unfold nameMapping
    induction sliceKeys dmap with
    | nil => rfl
    | cons k ks ih =>
      rw [List.filterMap_cons, List.filter_cons]
      cases hl : listed (entryOf dmap k) with
      | none => simpa using ih
      | some o => simpa using ih
  rw [h]
  exact (sliceKeys_nodup dmap).sublist List.filter_sublist

theorem renames_of {α : Type} {f : SField α} (hu : Unambiguous f) : Renames (nameMapping f.dmap) (f.dims.map (·.1)) := by
  refine ⟨nameMapping_keys _, fun n k o k' o' hn h1 h2 h3 h4 => ?_, fun n n' k o hn hn' h1 h2 h3 => ?_, fun n k o hn hk h1 h2 => ?_⟩
  · exact hu.one n k k' hn ((gives_iff _ _ _).2 ⟨o, h1, h3⟩) ((gives_iff _ _ _).2 ⟨o', h2, h4⟩)
  · exact hu.different n n' k hn hn' ((gives_iff _ _ _).2 ⟨o, h1, h2⟩) ((gives_iff _ _ _).2 ⟨o, h1, h3⟩)
  · exact hu.free n k hn hk ((gives_iff _ _ _).2 ⟨o, h1, h2⟩)

theorem sliceName_eq {α : Type} {f : SField α} (hu : Unambiguous f) {n s : String} (hn : n ∈ dimensionNames f) (h : SliceName f n s) :
    s = newName (nameMapping f.dmap) n := by
  rcases h with h | ⟨h1, h2⟩
  · obtain ⟨o, h3, h4⟩ := (gives_iff _ _ _).1 h
    exact (newName_listed (renames_of hu) hn h3 h4).symm
  · rw [newName_unlisted, h1]
    intro k o h3 h4
    exact h2 k ((gives_iff _ _ _).2 ⟨o, h3, h4⟩)

theorem newName_slice {α : Type} (f : SField α) (n : String) : SliceName f n (newName (nameMapping f.dmap) n) := by
  rcases newName_cases (nameMapping f.dmap) n with ⟨o, h1, h2⟩ | ⟨h1, h2⟩
  · exact .inl ((gives_iff _ _ _).2 ⟨o, h1, h2⟩)
  · refine .inr ⟨h1, fun k hk => ?_⟩
    obtain ⟨o, h3, h4⟩ := (gives_iff _ _ _).1 hk
    exact h2 k o h3 h4

/-! ## Inside the scope -/

theorem entered {α : Type} {f : SField α} (hs : SoundField f) (hu : Unambiguous f) : ∃ c, enterRenamed (nameMapping f.dmap) (scopeOf f) = (c.heap, .ok c) ∧
    RenamedSoFar (nameMapping f.dmap) f.dims (c.heap, c.dims) ∧
    c.vars = (scopeOf f).vars.map fun kn => (kn.1, kn.2.map (newName (nameMapping f.dmap))) := by
  have hr := renames_of hu
  have h0 : RenamedSoFar [] f.dims (namesOf f, f.dims) :=
    ⟨hs.keys, fun n i h => ⟨h, hs.names n i h⟩, fun k i h => ⟨k, h, rfl⟩⟩
  obtain ⟨hd, h1, h2⟩ := rename_all hr hs.keys hs.objects (nameMapping f.dmap) [] (namesOf f, f.dims) rfl h0
  have h3 := renameVars_spec hr (scopeOf f).vars (by
    intro k ns hm
    obtain ⟨⟨a, v⟩, h4, h5⟩ := List.mem_map.1 hm
    obtain ⟨rfl, rfl⟩ := Prod.mk.inj h5
    exact hs.vars a v h4)
  refine ⟨⟨hd.1, hd.2, (scopeOf f).vars.map fun kn => (kn.1, kn.2.map (newName (nameMapping f.dmap)))⟩, ?_, h2, rfl⟩
  unfold enterRenamed
  show (match renameEntries f.dims (nameMapping f.dmap) (namesOf f, f.dims) with
    | (h, .error e) => (h, Except.error e)
    | (h, .ok dims) => _) = _
  rw [h1]
  simp only
  rw [h3]

theorem zipWith_self {β γ : Type} (g : β → γ) (h : β → γ → δ) (l : List β) : l.zipWith h (l.map g) = l.map fun x => h x (g x) := by
  induction l with
  | nil => rfl
  | cons a l ih => simp [ih]

theorem renamed_vars {α : Type} (f : SField α) (c : VC) (σ : String → String) (hc : c.vars = (scopeOf f).vars.map fun kn => (kn.1, kn.2.map σ)) :
    (renamedColl f c).vars = f.vars.map (renVar σ) := by
  unfold renamedColl
  rw [hc]
  unfold scopeOf
  simp only [List.map_map]
  rw [zipWith_self]
  rfl

theorem find_objs {α : Type} (f : SField α) (hk : (f.dims.map (·.1)).Nodup) (n : String) (i : Nat) (h : (n, i) ∈ f.dims) :
    find (asColl f).dims n = some (f.objs i) := by
  apply find_of_mem
  · unfold asColl
    rw [List.map_map]
    exact hk
  · exact List.mem_map.2 ⟨_, h, rfl⟩

theorem renamed_dims {α : Type} {f : SField α} (hs : SoundField f) {c : VC} {m : NameMapping} (hc : RenamedSoFar m f.dims (c.heap, c.dims)) :
    SameUnder (newName m) (f.dims.map (·.1)) (renamedColl f c).dims (asColl f).dims := by
  intro n hn
  obtain ⟨⟨n, i⟩, h1, rfl⟩ := List.mem_map.1 hn
  rw [find_objs f hs.keys n i h1]
  obtain ⟨h2, h3⟩ := hc.there n i h1
  apply find_of_mem
  · unfold renamedColl
    rw [List.map_map]
    exact hc.keys
  · refine List.mem_map.2 ⟨_, h2, ?_⟩
    have h4 : c.heap i = newName m n := h3
    simp only [h4]
    rfl

/-- The slice by own names. -/
def ownSlice {α : Type} (f : SField α) (d : Assoc RawIndex) (strict distributed : Bool) : Res (List String × Coll α) :=
  if distributed then distColl (asColl f) f.data d strict
  else
    match sliceColl (asColl f) d with
    | .error e => .error e
    | .ok r => .ok (d.map (·.1), r)

/-- What is known about the collection sliced by own names and the one sliced inside. -/
structure Sliced {α : Type} (f : SField α) (σ : String → String) (keys : List String) (c1 c2 : Coll α) : Prop where
  dims : SameUnder σ (f.dims.map (·.1)) c1.dims c2.dims
  keys : c1.dims.map (·.1) = keys
  own : c2.dims.map (·.1) = f.dims.map (·.1)
  names : ∀ n D, find c2.dims n = some D → D.name = n
  vars : c1.vars.zipWith (fun kv kw => (kv.1, { kv.2 with names := kw.2.names })) f.vars = c2.vars

theorem sliceDims_names (all : Assoc Dim) (ha : ∀ n D, find all n = some D → D.name = n) (d : Assoc RawIndex) : ∀ (acc r : Assoc Dim),
    (∀ n D, find acc n = some D → D.name = n) → sliceDims all d acc = .ok r → ∀ n D, find r n = some D → D.name = n := by
  induction d with
  | nil =>
    intro acc r h1 h
    cases h
    exact h1
  | cons p d ih =>
    intro acc r h1 h
    obtain ⟨n, s⟩ := p
    unfold sliceDims at h
    cases hf : find all n with
    | none => rw [hf] at h; cases h
    | some D =>
      rw [hf] at h
      cases hg : D.getitem s with
      | error e => simp only [hg] at h; cases h
      | ok D' =>
        simp only [hg] at h
        refine ih _ _ ?_ h
        intro n' D'' h2
        rw [find_put] at h2
        split at h2
        · rename_i hx
          subst hx
          cases hfa : find acc n' with
          | none => rw [hfa] at h2; cases h2
          | some x =>
            rw [hfa] at h2
            cases h2
            rw [getitem_name D D' s hg, ha n' D hf]
        · exact h1 n' D'' h2

theorem own_names {α : Type} {f : SField α} (hs : SoundField f) : ∀ n D, find (asColl f).dims n = some D → D.name = n := by
  intro n D h
  have h1 : n ∈ (asColl f).dims.map (·.1) := (find_isSome _ _).1 ⟨D, h⟩
  unfold asColl at h1
  rw [List.map_map] at h1
  obtain ⟨⟨n, i⟩, h2, rfl⟩ := List.mem_map.1 h1
  have h3 := find_objs f hs.keys n i h2
  rw [Function.comp_apply] at h
  simp only at h
  rw [h3] at h
  cases h
  exact hs.names n i h2

theorem sliceColl_sim {α : Type} {f : SField α} (hs : SoundField f) (hu : Unambiguous f) {c : VC}
    (hc : RenamedSoFar (nameMapping f.dmap) f.dims (c.heap, c.dims))
    (hv : c.vars = (scopeOf f).vars.map fun kn => (kn.1, kn.2.map (newName (nameMapping f.dmap)))) {d d' : Assoc RawIndex}
    (hd : SlicesUnder (newName (nameMapping f.dmap)) (f.dims.map (·.1)) d d') :
    (∀ e, sliceColl (asColl f) d' = .error e → sliceColl (renamedColl f c) d = .error e) ∧
    ∀ c2, sliceColl (asColl f) d' = .ok c2 → ∃ c1, sliceColl (renamedColl f c) d = .ok c1 ∧
      Sliced f (newName (nameMapping f.dmap)) (c.dims.map (·.1)) c1 c2 := by
  have hr := renames_of hu
  have hσ : ∀ a b, a ∈ f.dims.map (·.1) → b ∈ f.dims.map (·.1) → newName (nameMapping f.dmap) a = newName (nameMapping f.dmap) b → a = b :=
    fun a b ha hb h => newName_inj hr ha hb h
  have hdims := renamed_dims hs hc
  obtain ⟨s1, s2⟩ := sliceDims_sim hσ hdims hd _ _ hdims
  have hvars := sliceVars_sim hσ hd f.vars fun k v hm => (hs.vars k v hm).2
  have hck : (renamedColl f c).dims.map (·.1) = c.dims.map (·.1) := by
    unfold renamedColl
    rw [List.map_map]
    rfl
  have hok : (asColl f).dims.map (·.1) = f.dims.map (·.1) := by
    unfold asColl
    rw [List.map_map]
    rfl
  have hempty : (renamedColl f c).dims = [] ↔ (asColl f).dims = [] := by
    rw [← List.map_eq_nil_iff (f := (·.1)) (l := (renamedColl f c).dims), ← List.map_eq_nil_iff (f := (·.1)) (l := (asColl f).dims), hck, hok,
      List.map_eq_nil_iff, List.map_eq_nil_iff]
    constructor
    · intro h
      cases hf : f.dims with
      | nil => rfl
      | cons p ps =>
        obtain ⟨n, i⟩ := p
        have := (hc.there n i (by simp [hf])).1
        simp [h] at this
    · intro h
      cases hf : c.dims with
      | nil => rfl
      | cons p ps =>
        obtain ⟨k, i⟩ := p
        obtain ⟨n, h1, -⟩ := hc.only k i (by simp [hf])
        simp [h] at h1
  unfold sliceColl
  by_cases h0 : (asColl f).dims = []
  · rw [if_pos h0, if_pos (hempty.2 h0)]
    exact ⟨fun e h => h, fun c2 h => by cases h⟩
  · rw [if_neg h0, if_neg fun h => h0 (hempty.1 h), renamed_vars f c _ hv]
    cases h2 : sliceDims (asColl f).dims d' (asColl f).dims with
    | error e =>
      rw [s1 e h2]
      exact ⟨fun e h => h, fun c2 h => by cases h⟩
    | ok r2 =>
      obtain ⟨r1, h3, h4⟩ := s2 r2 h2
      rw [h3]
      simp only
      rw [hvars]
      have hav : (asColl f).vars = f.vars := rfl
      rw [hav]
      cases h5 : sliceVars d' f.vars with
      | error e => exact ⟨fun e h => h, fun c2 h => by cases h⟩
      | ok w =>
        refine ⟨fun e h => (by cases h), fun c2 h => ?_⟩
        cases h
        refine ⟨_, rfl, h4, ?_, ?_, ?_, ?_⟩
        · rw [sliceDims_keys _ _ _ _ h3, hck]
        · rw [sliceDims_keys _ _ _ _ h2, hok]
        · exact sliceDims_names _ (own_names hs) d' _ _ (own_names hs) h2
        · exact vars_back _ d' f.vars w h5

theorem dimSlice_ren (s : String) (D : Dim) (i : Index) : dimSlice (renDim s D) i = (dimSlice D i).map (renDim s) := by
  unfold dimSlice
  have h1 : (renDim s D).isEmpty = D.isEmpty := rfl
  rw [h1]
  by_cases h2 : D.isEmpty = true
  · simp only [h2, if_true]; rfl
  · by_cases h3 : i = .slice PySlice.all
    · simp only [h2, h3, if_true]; rfl
    · simp only [h2, h3, if_false]
      cases i with
      | slice sl => exact getitem_ren s D _
      | ints xs => exact getitem_ren s D _
      | bools bs => exact getitem_ren s D _

theorem dimSlice_name (D D' : Dim) (i : Index) (h : dimSlice D i = .ok D') : D'.name = D.name := by
  have := dimSlice_ren D.name D i
  rw [renDim_self, h] at this
  have := Except.ok.inj this
  rw [this]
  rfl

theorem distDim_ren {σ : String → String} {N : List String} (hσ : ∀ a b, a ∈ N → b ∈ N → σ a = σ b → a = b) {all1 all2 : Assoc Dim}
    (ha : SameUnder σ N all1 all2) {d d' : Assoc RawIndex} (h : SlicesUnder σ N d d') (strict : Bool) (n : String) (hn : n ∈ N) :
    distDim all1 d strict (σ n) = (distDim all2 d' strict n).map fun p => (renDim (σ n) p.1, p.2) := by
  unfold distDim chosen
  rw [find_under hσ h n hn, ha n hn]
  cases hf : find d' n with
  | none =>
    cases strict with
    | true => rfl
    | false =>
      simp only [Bool.false_eq_true, if_false]
      cases formatSlice RawIndex.none with
      | error e => rfl
      | ok i =>
        simp only
        cases find all2 n with
        | none => rfl
        | some D =>
          simp only [Option.map_some, dimSlice_ren]
          cases dimSlice D i with
          | error e => rfl
          | ok D' =>
            have hl : (renDim (σ n) D).len = D.len := rfl
            simp only [Except.map, hl]
            cases localIndex D.len i <;> rfl
  | some s =>
    simp only
    cases formatSlice s with
    | error e => rfl
    | ok i =>
      simp only
      cases find all2 n with
      | none => rfl
      | some D =>
        simp only [Option.map_some, dimSlice_ren]
        cases dimSlice D i with
        | error e => rfl
        | ok D' =>
          have hl : (renDim (σ n) D).len = D.len := rfl
          simp only [Except.map, hl]
          cases localIndex D.len i <;> rfl

theorem mapM_under {β γ δ : Type} (F : γ → Res δ) (G : β → Res δ) (H : β → δ → δ) (σ : β → γ) (l : List β)
    (h : ∀ n ∈ l, F (σ n) = (G n).map (H n)) : (∀ e, l.mapM G = .error e → (l.map σ).mapM F = .error e) ∧
    ∀ r, l.mapM G = .ok r → (l.map σ).mapM F = .ok (l.zipWith H r) ∧ r.length = l.length := by
  induction l with
  | nil =>
    refine ⟨fun e h => (by cases h), fun r h => ?_⟩
    cases h
    exact ⟨rfl, rfl⟩
  | cons a l ih =>
    obtain ⟨i1, i2⟩ := ih fun n hn => h n (List.mem_cons_of_mem _ hn)
    rw [List.map_cons, List.mapM_cons, List.mapM_cons, h a (by simp)]
    cases hg : G a with
    | error e => exact ⟨fun e h => h, fun r h => by cases h⟩
    | ok x =>
      cases hl : l.mapM G with
      | error e =>
        rw [show (l.map σ).mapM F = .error e from i1 e hl]
        exact ⟨fun e h => h, fun r h => by cases h⟩
      | ok r =>
        obtain ⟨h1, h2⟩ := i2 r hl
        rw [h1]
        refine ⟨fun e h => (by cases h), fun r' h => ?_⟩
        cases h
        exact ⟨rfl, by simp [h2]⟩

theorem mapM_mem {β γ : Type} (F : β → Res γ) (l : List β) : ∀ r, l.mapM F = .ok r → ∀ n x, (n, x) ∈ l.zip r → F n = .ok x := by
  induction l with
  | nil => intro r _ n x h; cases h
  | cons a l ih =>
    intro r h n x hm
    rw [List.mapM_cons] at h
    cases hf : F a with
    | error e => rw [hf] at h; cases h
    | ok y =>
      cases hl : l.mapM F with
      | error e => rw [hf, hl] at h; cases h
      | ok ys =>
        rw [hf, hl] at h
        cases h
        rw [List.zip_cons_cons, List.mem_cons] at hm
        rcases hm with hm | hm
        · cases hm
          exact hf
        · exact ih ys hl n x hm

theorem foldPut_keys (l : Assoc Dim) : ∀ (acc : Assoc Dim), (l.foldl (fun ds nd => put ds nd.1 nd.2) acc).map (·.1) = acc.map (·.1) := by
  induction l with
  | nil => intro acc; rfl
  | cons a l ih => intro acc; rw [List.foldl_cons, ih, put_keys]

theorem foldPut_names (l : Assoc Dim) (hl : ∀ n D, (n, D) ∈ l → D.name = n) : ∀ (acc : Assoc Dim), (∀ n D, find acc n = some D → D.name = n) →
    ∀ n D, find (l.foldl (fun ds nd => put ds nd.1 nd.2) acc) n = some D → D.name = n := by
  induction l with
  | nil => intro acc h; exact h
  | cons a l ih =>
    intro acc h
    rw [List.foldl_cons]
    refine ih (fun n D hm => hl n D (List.mem_cons_of_mem _ hm)) _ fun n D hf => ?_
    rw [find_put] at hf
    split at hf
    · rename_i hx
      cases hfa : find acc a.1 with
      | none => rw [hfa] at hf; cases hf
      | some y =>
        rw [hfa] at hf
        cases hf
        rw [hx]
        exact hl a.1 a.2 (by simp)
    · exact h n D hf

theorem foldPut_sim {σ : String → String} {N : List String} (hσ : ∀ a b, a ∈ N → b ∈ N → σ a = σ b → a = b) (l : List String) (hl : ∀ n ∈ l, n ∈ N) :
    ∀ (ps : List (Dim × RawIndex)) (acc1 acc2 : Assoc Dim), ps.length = l.length → SameUnder σ N acc1 acc2 →
    SameUnder σ N (((l.map σ).zip ((l.zipWith (fun n p => (renDim (σ n) p.1, p.2)) ps).map (·.1))).foldl (fun ds nd => put ds nd.1 nd.2) acc1)
      ((l.zip (ps.map (·.1))).foldl (fun ds nd => put ds nd.1 nd.2) acc2) := by
  induction l with
  | nil => intro ps acc1 acc2 _ h; exact h
  | cons a l ih =>
    intro ps acc1 acc2 hlen h
    cases ps with
    | nil => simp at hlen
    | cons p ps =>
      simp only [List.map_cons, List.zipWith_cons_cons, List.zip_cons_cons, List.foldl_cons]
      refine ih (fun n hn => hl n (List.mem_cons_of_mem _ hn)) ps _ _ (by simpa using hlen) fun n hn => ?_
      rw [find_put, find_put]
      by_cases hx : n = a
      · subst hx
        rw [if_pos rfl, if_pos rfl, h n hn]
        cases find acc2 n <;> rfl
      · rw [if_neg hx, if_neg fun he => hx (hσ _ _ hn (hl a (by simp)) he), h n hn]

theorem find_vars_ren {α : Type} (σ : String → String) (vs : Assoc (DVar α)) (k : String) :
    find (vs.map (renVar σ)) k = (find vs k).map fun v => { v with names := v.names.map σ } := find_map vs (fun v => { v with names := v.names.map σ }) k

theorem zip_under {σ : String → String} {N : List String} (l : List String) (hl : ∀ n ∈ l, n ∈ N) : ∀ (ps : List (Dim × RawIndex)),
    ps.length = l.length →
    SlicesUnder σ N ((l.map σ).zip ((l.zipWith (fun n p => (renDim (σ n) p.1, p.2)) ps).map (·.2))) (l.zip (ps.map (·.2))) := by
  induction l with
  | nil => intro ps _; exact .nil
  | cons a l ih =>
    intro ps hlen
    cases ps with
    | nil => simp at hlen
    | cons p ps =>
      simp only [List.map_cons, List.zipWith_cons_cons, List.zip_cons_cons]
      exact .cons ⟨rfl, hl a (by simp), rfl⟩ (ih (fun n hn => hl n (List.mem_cons_of_mem _ hn)) ps (by simpa using hlen))

theorem distDim_name {all : Assoc Dim} (ha : ∀ n D, find all n = some D → D.name = n) (d : Assoc RawIndex) (strict : Bool) (n : String) (D' : Dim)
    (l : RawIndex) (h : distDim all d strict n = .ok (D', l)) : D'.name = n := by
  unfold distDim at h
  split at h
  · cases h
  · split at h
    · cases h
    · split at h
      · cases h
      · rename_i D hD
        split at h
        · cases h
        · rename_i D'' hD''
          split at h
          · cases h
          · simp only [Except.ok.injEq, Prod.mk.injEq] at h
            rw [← h.1, dimSlice_name _ _ _ hD'', ha n D hD]

theorem distColl_sim {α : Type} {f : SField α} (hs : SoundField f) (hu : Unambiguous f) {c : VC}
    (hc : RenamedSoFar (nameMapping f.dmap) f.dims (c.heap, c.dims))
    (hv : c.vars = (scopeOf f).vars.map fun kn => (kn.1, kn.2.map (newName (nameMapping f.dmap)))) {d d' : Assoc RawIndex}
    (hd : SlicesUnder (newName (nameMapping f.dmap)) (f.dims.map (·.1)) d d') (strict : Bool) :
    (∀ e, distColl (asColl f) f.data d' strict = .error e → distColl (renamedColl f c) f.data d strict = .error e) ∧
    ∀ x c2, distColl (asColl f) f.data d' strict = .ok (x, c2) → ∃ y c1, distColl (renamedColl f c) f.data d strict = .ok (y, c1) ∧
      Sliced f (newName (nameMapping f.dmap)) (c.dims.map (·.1)) c1 c2 := by
  have hr := renames_of hu
  have hσ : ∀ a b, a ∈ f.dims.map (·.1) → b ∈ f.dims.map (·.1) → newName (nameMapping f.dmap) a = newName (nameMapping f.dmap) b → a = b :=
    fun a b ha hb h => newName_inj hr ha hb h
  have hdims := renamed_dims hs hc
  unfold distColl
  cases f.data with
  | nil => exact ⟨fun e h => h, fun x c2 h => by cases h⟩
  | cons k ks =>
    simp only
    rw [renamed_vars f c _ hv, find_vars_ren]
    have hav : (asColl f).vars = f.vars := rfl
    rw [hav]
    cases hf : find f.vars k with
    | none => exact ⟨fun e h => h, fun x c2 h => by cases h⟩
    | some v =>
      simp only [Option.map_some]
      have hvn := (hs.vars k v (mem_of_find _ hf)).2
      obtain ⟨m1, m2⟩ := mapM_under (distDim (renamedColl f c).dims d strict) (distDim (asColl f).dims d' strict)
        (fun n p => (renDim (newName (nameMapping f.dmap) n) p.1, p.2)) (newName (nameMapping f.dmap)) v.names
        fun n hn => distDim_ren hσ hdims hd strict n (hvn n hn)
      cases hm : v.names.mapM (distDim (asColl f).dims d' strict) with
      | error e =>
        rw [m1 e hm]
        exact ⟨fun e h => h, fun x c2 h => by cases h⟩
      | ok ps =>
        obtain ⟨h1, h2⟩ := m2 ps hm
        rw [h1]
        simp only
        obtain ⟨s1, s2⟩ := sliceColl_sim hs hu hc hv (zip_under (σ := newName (nameMapping f.dmap)) v.names hvn ps h2)
        cases h3 : sliceColl (asColl f) (v.names.zip (ps.map (·.2))) with
        | error e =>
          rw [s1 e h3]
          exact ⟨fun e h => h, fun x c2 h => by cases h⟩
        | ok r2 =>
          obtain ⟨r1, h4, h5⟩ := s2 r2 h3
          rw [h4]
          refine ⟨fun e h => (by cases h), fun x c2 h => ?_⟩
          cases h
          refine ⟨_, _, rfl, foldPut_sim hσ v.names hvn ps _ _ h2 h5.dims, ?_, ?_, ?_, h5.vars⟩
          · simp only
            rw [foldPut_keys, h5.keys]
          · simp only
            rw [foldPut_keys, h5.own]
          · refine foldPut_names _ (fun n D hz => ?_) _ h5.names
            rw [List.zip_map_right] at hz
            have hz' : ∃ l, (n, (D, l)) ∈ v.names.zip ps := by
              obtain ⟨⟨a, b, l⟩, h6, h7⟩ := List.mem_map.1 hz
              simp only [Prod.map_apply, id, Prod.mk.injEq] at h7
              obtain ⟨rfl, rfl⟩ := h7
              exact ⟨l, h6⟩
            obtain ⟨l, hz'⟩ := hz'
            exact distDim_name (own_names hs) d' strict n D l (mapM_mem _ _ _ hm n (D, l) hz')

theorem inside_sim {α : Type} {f : SField α} (hs : SoundField f) (hu : Unambiguous f) {c : VC}
    (hc : RenamedSoFar (nameMapping f.dmap) f.dims (c.heap, c.dims))
    (hv : c.vars = (scopeOf f).vars.map fun kn => (kn.1, kn.2.map (newName (nameMapping f.dmap)))) {d d' : Assoc RawIndex}
    (hd : SlicesUnder (newName (nameMapping f.dmap)) (f.dims.map (·.1)) d d') (strict distributed : Bool) :
    (∀ e, ownSlice f d' strict distributed = .error e → sliceInside f c d strict distributed = .error e) ∧
    ∀ x c2, ownSlice f d' strict distributed = .ok (x, c2) → ∃ y c1, sliceInside f c d strict distributed = .ok (y, c1) ∧
      Sliced f (newName (nameMapping f.dmap)) (c.dims.map (·.1)) c1 c2 := by
  unfold ownSlice sliceInside
  cases distributed with
  | true => exact distColl_sim hs hu hc hv hd strict
  | false =>
    simp only [Bool.false_eq_true, if_false]
    obtain ⟨s1, s2⟩ := sliceColl_sim hs hu hc hv hd
    cases h : sliceColl (asColl f) d' with
    | error e =>
      rw [s1 e h]
      exact ⟨fun e h => h, fun x c2 h => by cases h⟩
    | ok r =>
      obtain ⟨c1, h1, h2⟩ := s2 r h
      rw [h1]
      refine ⟨fun e h => (by cases h), fun x c2 h => ?_⟩
      cases h
      exact ⟨_, _, rfl, h2⟩

/-! ## The whole slice -/

theorem key_there {α : Type} {f : SField α} {c : VC} {m : NameMapping} (hc : RenamedSoFar m f.dims (c.heap, c.dims)) {d d' : Assoc RawIndex}
    (hd : SlicesUnder (newName m) (f.dims.map (·.1)) d d') : (d.filter fun ks => c.dims.any fun kd => kd.1 == ks.1) = d := by
  rw [List.filter_eq_self]
  unfold SlicesUnder at hd
  induction hd with
  | nil => intro a h; cases h
  | cons h1 _ ih =>
    rename_i p q _ _ _
    intro a ha
    rcases List.mem_cons.1 ha with h | h
    · subst h
      obtain ⟨-, h2, h3⟩ := h1
      obtain ⟨⟨n, i⟩, h4, h5⟩ := List.mem_map.1 h2
      simp only at h5
      subst h5
      exact List.any_eq_true.2 ⟨_, (hc.there _ i h4).1, by simp [h3]⟩
    · exact ih a h

theorem refs_of {α : Type} {f : SField α} (hs : SoundField f) (hu : Unambiguous f) :
    RefsSoFar (nameMapping f.dmap) f.dims (backrefs f.dims (nameMapping f.dmap) (namesOf f, [])) := by
  refine refs_all (renames_of hu) hs.keys hs.objects _ [] _ rfl ⟨hs.names, by simp, fun n k => ?_⟩
  simp

theorem whole {α : Type} {f : SField α} (hs : SoundField f) (hu : Unambiguous f) {d d' : Assoc RawIndex} (hd : SameSlices f d d')
    (strict distributed : Bool) :
    (∀ e, ownSlice f d' strict distributed = .error e → (fieldSlice f d strict distributed).result = .error e) ∧
    (∀ x c2, ownSlice f d' strict distributed = .ok (x, c2) → ∃ c', (fieldSlice f d strict distributed).result = .ok c' ∧ c'.vars = c2.vars ∧
      (∀ n, find c'.dims n = find c2.dims n) ∧ ∀ n D, find c2.dims n = some D → D.name = n) ∧ (fieldSlice f d strict distributed).dslice = d := by
  obtain ⟨c, h1, h2, h3⟩ := entered hs hu
  have hd' : SlicesUnder (newName (nameMapping f.dmap)) (f.dims.map (·.1)) d d' := by
    unfold SameSlices at hd
    unfold SlicesUnder
    exact hd.imp fun p q h => ⟨h.1, h.2.1, sliceName_eq hu h.2.1 h.2.2⟩
  obtain ⟨s1, s2⟩ := inside_sim hs hu h2 h3 hd' strict distributed
  have hfil : (if strict then d else d.filter fun ks => c.dims.any fun kd => kd.1 == ks.1) = d := by
    rw [key_there h2 hd']
    cases strict <;> rfl
  have hr := renames_of hu
  unfold fieldSlice
  rw [h1]
  simp only
  rw [hfil]
  cases ho : ownSlice f d' strict distributed with
  | error e =>
    rw [s1 e ho]
    exact ⟨fun e h => (by cases h; rfl), fun x c2 h => (by cases h), rfl⟩
  | ok xc =>
    obtain ⟨x, c2⟩ := xc
    obtain ⟨y, c1, h4, h5⟩ := s2 x c2 ho
    rw [h4]
    simp only
    have hlk : (leftDims f c y.contains c1.dims).map (·.1) = c.dims.map (·.1) := by
      unfold leftDims
      have := left_keys (fun kd ki => if y.contains kd.1 then ⟨none, kd.2⟩ else ⟨some ki.2, { kd.2 with name := restoreNames c.heap f.dims ki.2 }⟩)
        c1.dims c.dims h5.keys
      rw [← this]
      congr 1
      congr 1
      funext kd ki
      split <;> rfl
    have hlf : ∀ n i, (n, i) ∈ f.dims → ∃ D, find c2.dims n = some D ∧ find (leftDims f c y.contains c1.dims) (newName (nameMapping f.dmap) n) =
        some (if y.contains (newName (nameMapping f.dmap) n) then ⟨none, renDim (newName (nameMapping f.dmap) n) D⟩ else ⟨some i, D⟩) := by
      intro n i hm
      have hn : n ∈ f.dims.map (·.1) := List.mem_map.2 ⟨_, hm, rfl⟩
      obtain ⟨D, hD⟩ := (find_isSome c2.dims n).2 (by rw [h5.own]; exact hn)
      refine ⟨D, hD, ?_⟩
      have h6 := h5.dims n hn
      rw [hD] at h6
      have h7 := left_find (fun kd ki => if y.contains kd.1 then ⟨none, kd.2⟩ else ⟨some ki.2, { kd.2 with name := restoreNames c.heap f.dims ki.2 }⟩)
        c1.dims c.dims h5.keys h2.keys _ i _ (h2.there n i hm).1 h6
      have h8 : leftDims f c y.contains c1.dims = c1.dims.zipWith (fun kd ki => (kd.1, if y.contains kd.1 then ⟨none, kd.2⟩ else
          ⟨some ki.2, { kd.2 with name := restoreNames c.heap f.dims ki.2 }⟩)) c.dims := by
        unfold leftDims
        congr 1
        funext kd ki
        split <;> rfl
      rw [h8, h7]
      simp only [restoreNames_of c.heap f.dims hs.objects n i hm]
      have h9 := h5.names n D hD
      split
      · rfl
      · subst h9
        rfl
    obtain ⟨r1, r2, r3, r4⟩ := revert_spec hr hs.objects (refs_of hs hu) (leftDims f c y.contains c1.dims) (by rw [hlk]; exact h2.keys)
      (by
        intro k hk
        rw [hlk] at hk
        obtain ⟨⟨k, i⟩, h6, rfl⟩ := List.mem_map.1 hk
        obtain ⟨n, h7, h8⟩ := h2.only k i h6
        exact ⟨n, List.mem_map.2 ⟨_, h7, rfl⟩, h8⟩)
      (by
        intro n i hm
        obtain ⟨D, -, h6⟩ := hlf n i hm
        refine ⟨_, h6, ?_⟩
        split
        · exact .inl rfl
        · exact .inr rfl)
      (restoreNames c.heap f.dims) (fun n i hm => restoreNames_of c.heap f.dims hs.objects n i hm)
    refine ⟨fun e h => (by cases h), fun x' c2' h => ?_, trivial⟩
    cases h
    refine ⟨_, rfl, h5.vars, fun n => ?_, h5.names⟩
    simp only
    rw [find_map _ (fun (r : RDim) => r.dim)]
    by_cases hn : n ∈ f.dims.map (·.1)
    · obtain ⟨⟨n, i⟩, hm, rfl⟩ := List.mem_map.1 hn
      obtain ⟨R, h6, h7⟩ := r1 n i hm
      obtain ⟨D, h8, h9⟩ := hlf n i hm
      rw [h9] at h6
      have h10 := h5.names n D h8
      simp only
      rw [h7, h8, ← Option.some.inj h6]
      by_cases hy : y.contains (newName (nameMapping f.dmap) n) = true
      · simp only [hy, if_true, Option.map_some]
        split
        · rename_i hx
          rw [hx]
          subst h10
          rfl
        · subst h10
          rfl
      · simp only [hy, Option.map_some]
        split
        · rfl
        · subst h10
          rfl
    · have h6 : find (revert (backrefs f.dims (nameMapping f.dmap) (namesOf f, [])).2 (leftDims f c y.contains c1.dims)
          (restoreNames c.heap f.dims)).1 n = none := (find_absent _ _).2 fun h => hn (r2 n h)
      have h7 : find c2.dims n = none := (find_absent _ _).2 fun h => hn (by rw [← h5.own]; exact h)
      rw [h6, h7]
      rfl

/-! ## The field afterwards -/

theorem inside_keys {α : Type} (f : SField α) (c : VC) (d : Assoc RawIndex) (strict distributed : Bool) (y : List String) (c1 : Coll α)
    (h : sliceInside f c d strict distributed = .ok (y, c1)) : c1.dims.map (·.1) = c.dims.map (·.1) := by
  have hcoll : ∀ d r, sliceColl (renamedColl f c) d = .ok r → r.dims.map (·.1) = c.dims.map (·.1) := by
    intro d r h
    unfold sliceColl at h
    split at h
    · cases h
    · cases h1 : sliceDims (renamedColl f c).dims d (renamedColl f c).dims with
      | error e => rw [h1] at h; cases h
      | ok ds =>
        rw [h1] at h
        simp only at h
        split at h
        · cases h
        · cases h
          rw [sliceDims_keys _ _ _ _ h1]
          unfold renamedColl
          rw [List.map_map]
          rfl
  unfold sliceInside at h
  split at h
  · unfold distColl at h
    split at h
    · cases h
    · split at h
      · cases h
      · split at h
        · cases h
        · split at h
          · cases h
          · rename_i r hr
            cases h
            simp only
            rw [foldPut_keys]
            exact hcoll _ _ hr
  · split at h
    · cases h
    · rename_i r hr
      cases h
      exact hcoll _ _ hr

theorem mapAfter_find (dmap : Assoc DmEntry) (k : String) : find (mapAfter dmap) k = (find dmap k).map fun e =>
    if (sliceKeys dmap).contains k then { e with dims := (listed e).getD e.dims } else e := by
  unfold mapAfter
  generalize sliceKeys dmap = ks
  induction dmap with
  | nil => rfl
  | cons ke dmap ih =>
    rw [List.map_cons, find_cons, find_cons, ih]
    by_cases h : ke.1 = k
    · subst h
      by_cases hc : ks.contains ke.1 = true
      · rw [if_pos hc, if_pos rfl, if_pos rfl]
        simp only [hc, if_true, Option.map_some]
      · rw [if_neg hc, if_pos rfl, if_pos rfl, Option.map_some, if_neg hc]
    · by_cases hc : ks.contains ke.1 = true
      · rw [if_pos hc, if_neg h, if_neg h]
      · rw [if_neg hc, if_neg h, if_neg h]

theorem after_listed {α : Type} (f : SField α) (objs : Nat → Dim) (ho : ∀ n i, (n, i) ∈ f.dims → objs i = f.objs i) :
    OnlyListed f { f with objs := objs, dmap := mapAfter f.dmap } := by
  refine ⟨rfl, rfl, rfl, ho, fun k e h => ?_, fun k h => ?_⟩
  · refine ⟨_, by simp only [mapAfter_find, h, Option.map_some]; rfl, ?_⟩
    split
    · refine ⟨rfl, ?_⟩
      simp only
      unfold listed
      cases hv : e.var with
      | none => exact .inl rfl
      | some v =>
        simp only [Option.map_some, Option.getD_some]
        by_cases he : e.dims = []
        · exact .inr ⟨he, v, rfl, by simp [he]⟩
        · exact .inl (by rw [if_neg (by simpa [List.isEmpty_iff] using he)])
    · exact ⟨rfl, .inl rfl⟩
  · simp [mapAfter_find, h]

theorem field_after {α : Type} {f : SField α} (hs : SoundField f) (hu : Unambiguous f) (d : Assoc RawIndex) (strict distributed : Bool) :
    OnlyListed f (fieldSlice f d strict distributed).field := by
  obtain ⟨c, h1, h2, h3⟩ := entered hs hu
  have hr := renames_of hu
  unfold fieldSlice
  rw [h1]
  simp only
  cases hi : sliceInside f c (if strict then d else d.filter fun ks => c.dims.any fun kd => kd.1 == ks.1) strict distributed with
  | error e =>
    refine after_listed f _ fun n i hm => ?_
    have := hs.names n i hm
    rw [restoreNames_of c.heap f.dims hs.objects n i hm, ← this]
  | ok yc =>
    obtain ⟨y, c1⟩ := yc
    have hk := inside_keys f c _ strict distributed y c1 hi
    have hlk : (leftDims f c y.contains c1.dims).map (·.1) = c.dims.map (·.1) := by
      unfold leftDims
      have := left_keys (fun kd ki => if y.contains kd.1 then ⟨none, kd.2⟩ else ⟨some ki.2, { kd.2 with name := restoreNames c.heap f.dims ki.2 }⟩)
        c1.dims c.dims hk
      rw [← this]
      congr 1
      congr 1
      funext kd ki
      split <;> rfl
    obtain ⟨-, -, -, r4⟩ := revert_spec hr hs.objects (refs_of hs hu) (leftDims f c y.contains c1.dims) (by rw [hlk]; exact h2.keys)
      (by
        intro k hk
        rw [hlk] at hk
        obtain ⟨⟨k, i⟩, h6, rfl⟩ := List.mem_map.1 hk
        obtain ⟨n, h7, h8⟩ := h2.only k i h6
        exact ⟨n, List.mem_map.2 ⟨_, h7, rfl⟩, h8⟩)
      (by
        intro n i hm
        have h5 := (h2.there n i hm).1
        obtain ⟨D, hD⟩ := (find_isSome c1.dims (newName (nameMapping f.dmap) n)).2 (by rw [hk]; exact List.mem_map.2 ⟨_, h5, rfl⟩)
        have h7 := left_find (fun kd ki => if y.contains kd.1 then ⟨none, kd.2⟩ else ⟨some ki.2, { kd.2 with name := restoreNames c.heap f.dims ki.2 }⟩)
          c1.dims c.dims hk h2.keys _ i _ h5 hD
        have h8 : leftDims f c y.contains c1.dims = c1.dims.zipWith (fun kd ki => (kd.1, if y.contains kd.1 then ⟨none, kd.2⟩ else
            ⟨some ki.2, { kd.2 with name := restoreNames c.heap f.dims ki.2 }⟩)) c.dims := by
          unfold leftDims
          congr 1
          funext kd ki
          split <;> rfl
        rw [h8]
        refine ⟨_, h7, ?_⟩
        split
        · exact .inl rfl
        · exact .inr rfl)
      (restoreNames c.heap f.dims) (fun n i hm => restoreNames_of c.heap f.dims hs.objects n i hm)
    refine after_listed f _ fun n i hm => ?_
    have := hs.names n i hm
    rw [r4 n i hm, ← this]

/-! ## Distributed slices -/

theorem plain_slice {n : Nat} {s : RawIndex} (h : PlainIndex n s) (hno : ¬ UsesArray s) : ∃ sl : PySlice, formatSlice s = .ok (.slice sl) ∧
    PlainIndex n (.slice sl) ∧ ∀ (xs : List Nat), xs.length = n → pick (.slice sl) xs = pick s xs := by
  have hsup : Supported n s := by
    cases s with
    | int i => exact h
    | slice s =>
      rcases h with h | ⟨a, b, h1, h2, h3, h4, -, -⟩
      · exact .inl h
      · exact .inr ⟨a, b, h1, h2, h3, h4⟩
    | ints xs => exact h
    | bools bs => exact (hno trivial).elim
    | none => trivial
  have hpick : ∀ sl, formatSlice s = .ok (.slice sl) → ∀ (xs : List Nat), xs.length = n → pick (.slice sl) xs = pick s xs := by
    intro sl hf xs hx
    obtain ⟨f, h1, h2⟩ := supported_format xs s (by rw [hx]; exact hsup)
    rw [hf] at h1
    cases h1
    exact h2
  cases s with
  | int i =>
    refine ⟨⟨some i, some (i + 1)⟩, rfl, .inr ⟨i, i + 1, rfl, h.1, by omega, ?_, h.2, ?_⟩, hpick _ rfl⟩
    · have := h.2; omega
    · have := h.1; omega
  | slice s => exact ⟨s, rfl, h, hpick _ rfl⟩
  | ints xs =>
    obtain ⟨a, b, hab, rfl⟩ := h.2.resolve_left hno
    have hf : formatSlice (.ints (intRange a b)) = .ok (.slice ⟨some a, some b⟩) := optimalSlice_run a b hab
    have ha := h.1 a (mem_intRange.2 ⟨by omega, hab⟩)
    have hb := h.1 (b - 1) (mem_intRange.2 ⟨by omega, by omega⟩)
    exact ⟨_, hf, .inr ⟨a, b, rfl, ha.1, by omega, by omega, ha.2, by omega⟩, hpick _ hf⟩
  | bools bs => exact (hno trivial).elim
  | none => exact ⟨PySlice.all, rfl, .inl rfl, hpick _ rfl⟩

theorem localIndex_plain (len : Int) (hlen : 0 ≤ len) (sl : PySlice) (h : PlainIndex len.toNat (.slice sl)) :
    localIndex len (.slice sl) = .ok (.slice sl) := by
  unfold localIndex
  rcases h with h | ⟨a, b, h1, h2, h3, h4, h5, h6⟩
  · simp [h]
  · have hne : sl ≠ PySlice.all := by rw [h1]; intro h; cases h
    have hg : Mpi.globalToLocal (some a) (some b) 0 len = .ok (some (a, b)) := by
      unfold Mpi.globalToLocal
      have e1 : ¬ a ≥ len := by omega
      have e2 : ¬ a < 0 := by omega
      have e3 : ¬ b ≤ 0 := by omega
      have e4 : ¬ len < b := by omega
      simp [e1, e2, e3, e4]
    simp only [if_neg hne]
    rw [h1]
    simp only [hg]

theorem intRange_toNat (n : Nat) : (intRange 0 n).map Int.toNat = List.range n := by
  apply List.ext_getElem?
  intro i
  by_cases hi : i < n
  · have h1 : i < (intRange 0 (n : Int)).length := by rw [length_intRange]; omega
    rw [List.getElem?_map, List.getElem?_range hi, List.getElem?_eq_getElem h1]
    have := takeInts_ok (intRange 0 (n : Int)) [(i : Int)] (by intro j hj; simp at hj; rw [length_intRange]; omega)
    rw [takeInts_intRange 0 n [(i : Int)] (by intro j hj; simp at hj; omega)] at this
    simp only [List.map_cons, List.map_nil, List.filterMap_cons, Int.toNat_natCast, List.getElem?_eq_getElem h1, List.filterMap_nil] at this
    have h2 := Except.ok.inj this
    simp only [List.cons.injEq, and_true, Int.add_zero] at h2
    simp only [Option.map_some, ← h2, Int.toNat_natCast]
  · rw [List.getElem?_eq_none (by rw [List.length_map, length_intRange]; omega), List.getElem?_eq_none (by simp; omega)]

theorem whereTrue_positions (bs : List Bool) : pick (.ints (whereTrue bs 0)) (List.range bs.length) = pick (.bools bs) (List.range bs.length) := by
  have hin : ∀ i ∈ whereTrue bs 0, 0 ≤ i ∧ i < (bs.length : Int) := by
    intro i hi
    rw [← takeBools_intRange] at hi
    have := (takeBools_sublist _ bs).subset hi
    rw [mem_intRange] at this
    omega
  have h1 := takeInts_map Int.toNat _ _ _ (takeInts_intRange 0 bs.length (whereTrue bs 0) (by intro i hi; have := hin i hi; omega))
  rw [intRange_toNat] at h1
  have h2 := takeBools_map Int.toNat (intRange 0 bs.length) bs
  rw [intRange_toNat] at h2
  have h3 := takeBools_intRange bs 0
  rw [Int.zero_add] at h3
  unfold pick
  simp only [List.length_range, ne_eq, not_true_eq_false, if_false]
  rw [h1, h2, h3]
  simp

theorem whereTrue_supported (bs : List Bool) (ht : true ∈ bs) : Supported bs.length (.ints (whereTrue bs 0)) ∧ whereTrue bs 0 ≠ [] := by
  have h3 := takeBools_intRange bs 0
  rw [Int.zero_add] at h3
  have hsub := takeBools_sublist (intRange 0 bs.length) bs
  rw [h3] at hsub
  have hne : whereTrue bs 0 ≠ [] := by
    rw [← h3]
    exact takeBools_ne_nil _ _ (by rw [length_intRange]; omega) ht
  refine ⟨⟨fun x hx => ?_, increasing_shape _ hne ((intRange_increasing 0 bs.length).sublist hsub)⟩, hne⟩
  exact mem_intRange.1 (hsub.subset hx)

/-- The dimension and the local slice of an index that is understood. -/
theorem distDim_array (D : Dim) (s : RawIndex) (hal : Aligned D) (hpos : 0 < D.len) (hne : D.isEmpty = false) (hp : PlainIndex D.len.toNat s)
    (hu : UsesArray s) : ∃ i D' l, formatSlice s = .ok i ∧ dimSlice D i = .ok D' ∧ localIndex D.len i = .ok l ∧ Supported D.len.toNat l ∧
      pick l (List.range D.len.toNat) = pick s (List.range D.len.toNat) ∧ ∃ p, pick l (List.range D.len.toNat) = .ok p ∧ D'.len = p.length := by
  cases s with
  | ints xs =>
    have hf : formatSlice (.ints xs) = .ok (.ints xs) := optimalSlice_jump xs hu
    obtain ⟨r, hr1, hr2⟩ := getitem_supported D (.ints xs) hal hpos hp
    obtain ⟨ys, e1, e2⟩ := hr2.lens (List.range D.len.toNat) (by simp; omega)
    refine ⟨_, r, .ints xs, hf, ?_, rfl, hp, rfl, ys, e1, e2.symm⟩
    unfold dimSlice
    rw [hne]
    simpa using hr1
  | bools bs =>
    obtain ⟨hb, ht⟩ := hp
    obtain ⟨r, hr1, hr2⟩ := getitem_supported D (.bools bs) hal hpos hb
    obtain ⟨ys, e1, e2⟩ := hr2.lens (List.range D.len.toNat) (by simp; omega)
    obtain ⟨hs, hnil⟩ := whereTrue_supported bs ht
    have hw := whereTrue_positions bs
    rw [hb] at hs hw
    refine ⟨.bools bs, r, .ints (whereTrue bs 0), rfl, ?_, ?_, hs, hw, ys, by rw [hw]; exact e1, e2.symm⟩
    · unfold dimSlice
      rw [hne]
      simpa using hr1
    · unfold localIndex
      simp [hnil]
  | int i => exact hu.elim
  | slice s => exact hu.elim
  | none => exact hu.elim

theorem distDim_plain (all : Assoc Dim) (d : Assoc RawIndex) (strict : Bool) (n : String) (D : Dim) (hD : find all n = some D)
    (hst : strict = true → find d n ≠ none) (hal : Aligned D) (hpos : 0 < D.len) (hne : D.isEmpty = false)
    (hp : ∀ s, find d n = some s → PlainIndex D.len.toNat s) : ∃ D' l, distDim all d strict n = .ok (D', l) ∧
      Supported D.len.toNat l ∧ (∃ p, pick l (List.range D.len.toNat) = .ok p ∧ D'.len = p.length) ∧
      (∀ s, find d n = some s → pick l (List.range D.len.toNat) = pick s (List.range D.len.toNat)) ∧
      (find d n = none → l = .slice PySlice.all) ∧ (UsesArray l → ∃ s, find d n = some s ∧ UsesArray s) := by
  obtain ⟨raw, hraw, hplain, hsame, hnone⟩ : ∃ raw, chosen d strict n = .ok raw ∧
      PlainIndex D.len.toNat raw ∧ (∀ s, find d n = some s → raw = s) ∧ (find d n = none → raw = .none) := by
    unfold chosen
    cases hf : find d n with
    | none =>
      cases hs : strict with
      | true => exact absurd hf (hst hs)
      | false => exact ⟨.none, rfl, trivial, fun s h => (by cases h), fun _ => rfl⟩
    | some s => exact ⟨s, rfl, hp s hf, fun t h => (by cases h; rfl), fun h => (by cases h)⟩
  by_cases hu : UsesArray raw
  · have hfs : ∃ s, find d n = some s := by
      cases hf : find d n with
      | none => rw [hnone hf] at hu; exact hu.elim
      | some s => exact ⟨s, rfl⟩
    obtain ⟨s, hs⟩ := hfs
    have hrs := hsame s hs
    subst hrs
    obtain ⟨i, D', l, h1, h2, h3, h4, h5, h6⟩ := distDim_array D raw hal hpos hne hplain hu
    refine ⟨D', l, ?_, h4, h6, fun s' hs' => ?_, fun hn => ?_, fun _ => ⟨raw, hs, hu⟩⟩
    · unfold distDim
      rw [hraw]
      simp only [h1, hD, h2, h3]
    · rw [hs] at hs'; cases hs'; exact h5
    · rw [hs] at hn; cases hn
  obtain ⟨sl, h1, h2, h3⟩ := plain_slice hplain hu
  have hsup : Supported D.len.toNat (.slice sl) := by
    rcases h2 with h | ⟨a, b, e1, e2, e3, e4, -, -⟩
    · exact .inl h
    · exact .inr ⟨a, b, e1, e2, e3, e4⟩
  obtain ⟨D', hD', p, hpk, hlen⟩ : ∃ D', dimSlice D (.slice sl) = .ok D' ∧ ∃ p, pick (.slice sl) (List.range D.len.toNat) = .ok p ∧ D'.len = p.length := by
    unfold dimSlice
    rw [hne]
    by_cases hall : sl = PySlice.all
    · subst hall
      refine ⟨D, by simp, _, rfl, ?_⟩
      have : PySlice.all.get (List.range D.len.toNat) = List.range D.len.toNat := by
        obtain ⟨r, -, hr⟩ := getitem_supported D .none hal hpos trivial
        have := (supported_format (List.range D.len.toNat) .none trivial)
        obtain ⟨f, e1, e2⟩ := this
        cases e1
        exact Except.ok.inj e2
      rw [this, List.length_range]
      omega
    · have hne' : (Index.slice sl) ≠ .slice PySlice.all := fun h => hall (by cases h; rfl)
      obtain ⟨r, hr1, hr2⟩ := getitem_supported D (.slice sl) hal hpos hsup
      refine ⟨r, by simp only [Bool.false_eq_true, if_false, if_neg hne']; exact hr1, ?_⟩
      obtain ⟨ys, e1, e2⟩ := hr2.lens (List.range D.len.toNat) (by simp; omega)
      exact ⟨ys, e1, e2.symm⟩
  refine ⟨D', .slice sl, ?_, hsup, ⟨p, hpk, hlen⟩, fun s hs => ?_, fun hn => ?_, fun h => h.elim⟩
  · unfold distDim
    rw [hraw]
    simp only [h1, hD, hD', localIndex_plain D.len (by omega) sl h2]
  · rw [← hsame s hs]
    exact h3 _ (by simp)
  · have := hnone hn
    rw [this] at h1
    cases h1
    rfl

theorem foldPut_other (l : Assoc Dim) (n : String) (hn : n ∉ l.map (·.1)) : ∀ (acc : Assoc Dim),
    find (l.foldl (fun ds nd => put ds nd.1 nd.2) acc) n = find acc n := by
  induction l with
  | nil => intro acc; rfl
  | cons a l ih =>
    intro acc
    simp only [List.map_cons, List.mem_cons, not_or] at hn
    rw [List.foldl_cons, ih hn.2, find_put, if_neg hn.1]

theorem foldPut_there (l : Assoc Dim) (hl : (l.map (·.1)).Nodup) (n : String) (D : Dim) (hm : (n, D) ∈ l) : ∀ (acc : Assoc Dim), n ∈ acc.map (·.1) →
    find (l.foldl (fun ds nd => put ds nd.1 nd.2) acc) n = some D := by
  induction l with
  | nil => cases hm
  | cons a l ih =>
    intro acc ha
    simp only [List.map_cons, List.nodup_cons] at hl
    rw [List.foldl_cons]
    rcases List.mem_cons.1 hm with h | h
    · subst h
      rw [foldPut_other l n hl.1, find_put, if_pos rfl]
      obtain ⟨x, hx⟩ := (find_isSome acc n).2 ha
      rw [hx]
      rfl
    · exact ih hl.2 h _ (by rw [put_keys]; exact ha)

theorem mapM_exists {β γ : Type} (F : β → Res γ) (l : List β) (h : ∀ n ∈ l, ∃ x, F n = .ok x) : ∃ r, l.mapM F = .ok r ∧ r.length = l.length := by
  induction l with
  | nil => exact ⟨[], rfl, rfl⟩
  | cons a l ih =>
    obtain ⟨x, hx⟩ := h a (by simp)
    obtain ⟨r, hr, hl⟩ := ih fun n hn => h n (List.mem_cons_of_mem _ hn)
    refine ⟨x :: r, ?_, by simp [hl]⟩
    rw [List.mapM_cons, hx, hr]
    rfl

/-! ## Deciding that names are unambiguous -/

def clearNames (m : NameMapping) (names : List String) : Bool :=
  names.all fun n => m.all fun ko => !ko.2.contains n || ((m.all fun ko' => !ko'.2.contains n || ko'.1 == ko.1) &&
    (names.all fun n' => !ko.2.contains n' || n' == n) && (!names.contains ko.1 || ko.1 == n))

theorem unambiguous_of {α : Type} (f : SField α) (h : clearNames (nameMapping f.dmap) (dimensionNames f) = true) : Unambiguous f := by
  have key : ∀ n k o, n ∈ dimensionNames f → (k, o) ∈ nameMapping f.dmap → n ∈ o →
      (∀ k' o', (k', o') ∈ nameMapping f.dmap → n ∈ o' → k' = k) ∧ (∀ n' ∈ dimensionNames f, n' ∈ o → n' = n) ∧
      (k ∈ dimensionNames f → k = n) := by
    intro n k o hn hk ho
    have h1 := List.all_eq_true.1 (List.all_eq_true.1 h n hn) (k, o) hk
    simp only [Bool.or_eq_true, Bool.and_eq_true, Bool.not_eq_true', List.all_eq_true, beq_iff_eq] at h1
    rcases h1 with h1 | ⟨⟨h1, h2⟩, h3⟩
    · rw [← Bool.not_eq_true, List.contains_iff_mem] at h1
      exact absurd ho h1
    · refine ⟨fun k' o' hk' ho' => ?_, fun n' hn' ho' => ?_, fun hkn => ?_⟩
      · rcases h1 (k', o') hk' with h4 | h4
        · rw [← Bool.not_eq_true, List.contains_iff_mem] at h4
          exact absurd ho' h4
        · exact h4
      · rcases h2 n' hn' with h4 | h4
        · rw [← Bool.not_eq_true, List.contains_iff_mem] at h4
          exact absurd ho' h4
        · exact h4
      · rcases h3 with h4 | h4
        · rw [← Bool.not_eq_true, List.contains_iff_mem] at h4
          exact absurd hkn h4
        · exact h4
  refine ⟨fun n k k' hn h1 h2 => ?_, fun n n' k hn hn' h1 h2 => ?_, fun n k hn hk h1 => ?_⟩
  · obtain ⟨o, e1, e2⟩ := (gives_iff _ _ _).1 h1
    obtain ⟨o', e3, e4⟩ := (gives_iff _ _ _).1 h2
    exact ((key n k o hn e1 e2).1 k' o' e3 e4).symm
  · obtain ⟨o, e1, e2⟩ := (gives_iff _ _ _).1 h1
    obtain ⟨o', e3, e4⟩ := (gives_iff _ _ _).1 h2
    have : o' = o := by
      obtain ⟨a, ha, hae⟩ := List.getElem_of_mem e1
      obtain ⟨b, hb, hbe⟩ := List.getElem_of_mem e3
      have hab : a = b := by
        refine (List.getElem_inj (h₀ := by simpa using ha) (h₁ := by simpa using hb) (nameMapping_keys f.dmap)).1 ?_
        simp [hae, hbe]
      subst hab
      rw [hae] at hbe
      exact (Prod.mk.inj hbe).2.symm
    subst this
    exact ((key n k o' hn e1 e2).2.1 n' hn' e4).symm
  · obtain ⟨o, e1, e2⟩ := (gives_iff _ _ _).1 h1
    exact (key n k o hn e1 e2).2.2 hk

/-! ## An example -/

def sliceDim (n : String) (k : Int) : Dim := ⟨n, some k, some k, false, false, none, none, none⟩

def sliceField : SField Nat where
  objs := fun i => if i = 0 then sliceDim "t" 4 else if i = 1 then sliceDim "lat" 3 else sliceDim "lon" 5
  dims := [("t", 0), ("lat", 1), ("lon", 2)]
  vars := [("tas", { names := ["t", "lat", "lon"], shape := [4, 3, 5], value := fun idx => idx.foldl (fun a i => 10 * a + i) 0 }),
    ("lat", { names := ["lat"], shape := [3], value := fun idx => idx.getD 0 0 })]
  data := ["tas"]
  dmap := [("time", ⟨some "t", ["t"]⟩), ("y", ⟨some "lat", []⟩), ("x", ⟨some "lon", ["lon"]⟩)]

theorem sliceField_sound : SoundField sliceField := by
  refine ⟨by decide, by decide, fun n i h => ?_, fun k v h => ?_⟩
  · simp only [sliceField, List.mem_cons, Prod.mk.injEq, List.not_mem_nil, or_false] at h
    rcases h with ⟨rfl, rfl⟩ | ⟨rfl, rfl⟩ | ⟨rfl, rfl⟩ <;> decide
  · simp only [sliceField, List.mem_cons, Prod.mk.injEq, List.not_mem_nil, or_false] at h
    rcases h with ⟨rfl, rfl⟩ | ⟨rfl, rfl⟩ <;> exact ⟨by decide, by decide⟩

theorem sliceField_clear : Unambiguous sliceField := unambiguous_of _ (by decide)

theorem sliceField_fits : VariablesFit sliceField := by
  intro k v h
  simp only [sliceField, List.mem_cons, Prod.mk.injEq, List.not_mem_nil, or_false] at h
  rcases h with ⟨rfl, rfl⟩ | ⟨rfl, rfl⟩
  · refine ⟨rfl, fun j n hj => ?_⟩
    match j, hj with
    | 0, hj => cases hj; exact ⟨0, by decide, by decide⟩
    | 1, hj => cases hj; exact ⟨1, by decide, by decide⟩
    | 2, hj => cases hj; exact ⟨2, by decide, by decide⟩
    | j + 3, hj => cases hj
  · refine ⟨rfl, fun j n hj => ?_⟩
    match j, hj with
    | 0, hj => cases hj; exact ⟨1, by decide, by decide⟩
    | j + 1, hj => cases hj

theorem sliceField_slices : SameSlices sliceField [("y", .int 1), ("x", .slice ⟨some 0, some 2⟩)] [("lat", .int 1), ("lon", .slice ⟨some 0, some 2⟩)] := by
  refine .cons ⟨rfl, by decide, ?_⟩ (.cons ⟨rfl, by decide, ?_⟩ .nil)
  · exact .inl ((gives_iff _ _ _).2 ⟨["lat"], by decide, by decide⟩)
  · exact .inl ((gives_iff _ _ _).2 ⟨["lon"], by decide, by decide⟩)

end Ocgis.Props
