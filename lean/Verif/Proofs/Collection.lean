import Verif.Spec.Collection
/-!
# Lemmas
-/
namespace Ocgis.Props
open Ocgis.Collection Ocgis.Spec

theorem Dict.has_iff {α : Type} (d : Dict α) (k : String) : Dict.has d k = true ↔ k ∈ d.map (·.1) := by
  simp [Dict.has, List.any_eq_true]

theorem Dict.keys_set {α : Type} (d : Dict α) (k : String) (x : α) :
    (Dict.set d k x).map (·.1) = if k ∈ d.map (·.1) then d.map (·.1) else d.map (·.1) ++ [k] := by
  unfold Dict.set
  by_cases h : k ∈ d.map (·.1)
  · rw [if_pos ((Dict.has_iff d k).2 h), if_pos h, List.map_map]
    apply List.map_congr_left
    intro kv _
    simp only [Function.comp]
    split
    · rename_i e; exact e.symm
    · rfl
  · rw [if_neg (fun e => h ((Dict.has_iff d k).1 e)), if_neg h]
    simp

theorem Dict.nodup_set {α : Type} (d : Dict α) (k : String) (x : α) (h : (d.map (·.1)).Nodup) : ((Dict.set d k x).map (·.1)).Nodup := by
  rw [Dict.keys_set]
  split
  · exact h
  · rename_i hk
    rw [List.nodup_append]
    refine ⟨h, by simp, ?_⟩
    intro a ha b hb
    simp only [List.mem_singleton] at hb
    subst hb
    intro e; subst e; exact hk ha

theorem Dict.mem_set {α : Type} (d : Dict α) (k : String) (x : α) (m : String) (y : α) :
    (m, y) ∈ Dict.set d k x ↔ (m = k ∧ y = x) ∨ (m ≠ k ∧ (m, y) ∈ d) := by
  unfold Dict.set
  by_cases h : k ∈ d.map (·.1)
  · rw [if_pos ((Dict.has_iff d k).2 h), List.mem_map]
    constructor
    · rintro ⟨kv, hkv, he⟩
      split at he
      · injection he with e1 e2
        exact .inl ⟨e1.symm, e2.symm⟩
      · rename_i hne
        subst he
        exact .inr ⟨hne, hkv⟩
    · rintro (⟨rfl, rfl⟩ | ⟨h1, h2⟩)
      · obtain ⟨kv, hkv, he⟩ := List.mem_map.1 h
        exact ⟨kv, hkv, by rw [if_pos he]⟩
      · exact ⟨(m, y), h2, by rw [if_neg h1]⟩
  · rw [if_neg (fun e => h ((Dict.has_iff d k).1 e)), List.mem_append, List.mem_singleton, Prod.mk.injEq]
    constructor
    · rintro (h1 | h1)
      · exact .inr ⟨fun e => h (by subst e; exact List.mem_map.2 ⟨_, h1, rfl⟩), h1⟩
      · exact .inl h1
    · rintro (h1 | h1)
      · exact .inr h1
      · exact .inl h1.2

theorem Dict.mem_erase {α : Type} (d : Dict α) (k m : String) (y : α) : (m, y) ∈ Dict.erase d k ↔ m ≠ k ∧ (m, y) ∈ d := by
  simp [Dict.erase, List.mem_filter, and_comm]

theorem Dict.keys_erase {α : Type} (d : Dict α) (k m : String) : m ∈ (Dict.erase d k).map (·.1) ↔ m ≠ k ∧ m ∈ d.map (·.1) := by
  simp only [List.mem_map]
  constructor
  · rintro ⟨⟨a, b⟩, h, rfl⟩
    have := (Dict.mem_erase d k a b).1 h
    exact ⟨this.1, _, this.2, rfl⟩
  · rintro ⟨h, ⟨a, b⟩, hm, rfl⟩
    exact ⟨(a, b), (Dict.mem_erase d k a b).2 ⟨h, hm⟩, rfl⟩

theorem Dict.nodup_erase {α : Type} (d : Dict α) (k : String) (h : (d.map (·.1)).Nodup) : ((Dict.erase d k).map (·.1)).Nodup := by
  unfold Dict.erase
  have : (List.filter (fun kv => kv.1 != k) d).map (·.1) = (d.map (·.1)).filter (fun x => x != k) := by
    rw [List.filter_map]; rfl
  rw [this]
  exact List.Pairwise.filter _ h

theorem Dict.get?_mem {α : Type} {d : Dict α} {k : String} {x : α} (h : Dict.get? d k = some x) : (k, x) ∈ d := by
  unfold Dict.get? at h
  cases hf : List.find? (fun kv => kv.1 == k) d with
  | none => rw [hf] at h; cases h
  | some kv =>
    rw [hf] at h
    simp only [Option.map_some, Option.some.injEq] at h
    have hk := List.find?_some hf
    simp only [beq_iff_eq] at hk
    rw [← hk, ← h]
    exact List.mem_of_find?_eq_some hf

theorem Dict.get?_none {α : Type} {d : Dict α} {k : String} : Dict.get? d k = none ↔ k ∉ d.map (·.1) := by
  unfold Dict.get?
  simp only [Option.map_eq_none_iff, List.find?_eq_none, beq_iff_eq, List.mem_map, not_exists, not_and]

theorem Dict.mem_unique {α : Type} {d : Dict α} (h : (d.map (·.1)).Nodup) {k : String} {x y : α} (hx : (k, x) ∈ d) (hy : (k, y) ∈ d) : x = y := by
  induction d with
  | nil => cases hx
  | cons kv d ih =>
    simp only [List.map_cons, List.nodup_cons] at h
    rcases List.mem_cons.1 hx with hx | hx <;> rcases List.mem_cons.1 hy with hy | hy
    · have := hx.trans hy.symm; injection this
    · exact absurd (List.mem_map.2 ⟨_, hy, by rw [← hx]⟩) h.1
    · exact absurd (List.mem_map.2 ⟨_, hx, by rw [← hy]⟩) h.1
    · exact ih h.2 hx hy

/-- The dimensions hold at least those of before, with the same sizes. -/
def DimsGrow (c c' : Coll) : Prop := ∀ x, x ∈ c.dims → x ∈ c'.dims

theorem consistent_dims {c c' : Coll} (h : Consistent c) (hd : (c'.dims.map (·.1)).Nodup) (hg : DimsGrow c c')
    (hv : c'.vars = c.vars) (ht : c'.tags = c.tags) : Consistent c' :=
  ⟨hd, by rw [hv]; exact h.varKeys, by rw [hv]; exact h.named, by rw [hv]; exact h.rank,
    by rw [hv]; intro k v hkv i d n h1 h2; exact hg _ (h.sizes k v hkv i d n h1 h2), by rw [hv, ht]; exact h.tagged⟩

theorem addDim_spec (c : Coll) (n : String) (s : Nat) (hk : (c.dims.map (·.1)).Nodup) :
    (((addDim c n s false).1.dims.map (·.1)).Nodup) ∧ DimsGrow c (addDim c n s false).1 ∧
      (addDim c n s false).1.vars = c.vars ∧ (addDim c n s false).1.tags = c.tags ∧
      ((addDim c n s false).2 = none → (n, s) ∈ (addDim c n s false).1.dims) := by
  unfold addDim
  cases hg : Dict.get? c.dims n with
  | some m =>
    simp only [Bool.false_eq_true, if_false]
    split
    · rename_i e
      subst e
      exact ⟨hk, fun x h => h, rfl, rfl, fun _ => Dict.get?_mem hg⟩
    · exact ⟨hk, fun x h => h, rfl, rfl, fun h => by cases h⟩
  | none =>
    have hno := Dict.get?_none.1 hg
    refine ⟨Dict.nodup_set _ _ _ hk, ?_, rfl, rfl, fun _ => (Dict.mem_set _ _ _ _ _).2 (.inl ⟨rfl, rfl⟩)⟩
    rintro ⟨a, b⟩ hx
    refine (Dict.mem_set _ _ _ _ _).2 (.inr ⟨?_, hx⟩)
    intro e; subst e
    exact hno (List.mem_map.2 ⟨_, hx, rfl⟩)

theorem addDims_spec (ds : Dict Nat) : ∀ (c : Coll), (c.dims.map (·.1)).Nodup →
    (((addDims false c ds).1.dims.map (·.1)).Nodup) ∧ DimsGrow c (addDims false c ds).1 ∧
      (addDims false c ds).1.vars = c.vars ∧ (addDims false c ds).1.tags = c.tags ∧
      ((addDims false c ds).2 = none → ∀ x ∈ ds, x ∈ (addDims false c ds).1.dims) := by
  induction ds with
  | nil => intro c hk; exact ⟨hk, fun x h => h, rfl, rfl, fun _ x hx => by cases hx⟩
  | cons x ds ih =>
    intro c hk
    obtain ⟨n, s⟩ := x
    obtain ⟨h1, h2, h3, h4, h5⟩ := addDim_spec c n s hk
    rw [addDims]
    generalize hr : addDim c n s false = r at h1 h2 h3 h4 h5
    obtain ⟨c1, e1⟩ := r
    cases e1 with
    | some e => exact ⟨h1, h2, h3, h4, fun h => by cases h⟩
    | none =>
      obtain ⟨g1, g2, g3, g4, g5⟩ := ih c1 h1
      refine ⟨g1, fun x hx => g2 x (h2 x hx), g3.trans h3, g4.trans h4, ?_⟩
      intro he x hx
      rcases List.mem_cons.1 hx with rfl | hx
      · exact g2 _ (h5 rfl)
      · exact g5 he x hx

/-- A variable fits the dimensions. -/
def Fits (c : Coll) (v : CVar) : Prop := v.dims.length = v.shape.length ∧ v.dims.Nodup ∧
  ∀ (i : Nat) d n, v.dims[i]? = some d → v.shape[i]? = some n → (d, n) ∈ c.dims

theorem addOrphan_spec (c : Coll) (v : CVar) (h : Consistent c) (hf : Fits c v) :
    Consistent (addOrphan c v false).1 ∧ (addOrphan c v false).1.dims = c.dims := by
  unfold addOrphan
  simp only [Bool.not_false, Bool.true_and]
  split
  · exact ⟨h, rfl⟩
  · rename_i hno
    have hno : v.name ∉ c.vars.map (·.1) := fun e => hno ((Dict.has_iff _ _).2 e)
    refine ⟨⟨h.dimKeys, Dict.nodup_set _ _ _ h.varKeys, ?_, ?_, ?_, ?_⟩, rfl⟩
    · intro k w hw
      rcases (Dict.mem_set _ _ _ _ _).1 hw with ⟨rfl, rfl⟩ | ⟨_, hw⟩
      · rfl
      · exact h.named k w hw
    · intro k w hw
      rcases (Dict.mem_set _ _ _ _ _).1 hw with ⟨rfl, rfl⟩ | ⟨_, hw⟩
      · exact ⟨hf.1, hf.2.1⟩
      · exact h.rank k w hw
    · intro k w hw
      rcases (Dict.mem_set _ _ _ _ _).1 hw with ⟨rfl, rfl⟩ | ⟨_, hw⟩
      · exact hf.2.2
      · exact h.sizes k w hw
    · intro t ns ht
      refine ⟨(h.tagged t ns ht).1, ?_⟩
      intro n hn
      have := (h.tagged t ns ht).2 n hn
      rw [Dict.keys_set]
      split
      · exact this
      · exact List.mem_append_left _ this

theorem addVars_spec (vs : List CVar) : ∀ c : Coll, Consistent c → (∀ v ∈ vs, Fits c v) → Consistent (addVars false c vs).1 := by
  induction vs with
  | nil => intro c h _; exact h
  | cons v vs ih =>
    intro c h hf
    obtain ⟨h1, h2⟩ := addOrphan_spec c v h (hf v (by simp))
    rw [addVars]
    generalize hr : addOrphan c v false = r at h1 h2
    obtain ⟨c1, e1⟩ := r
    cases e1 with
    | some e => exact h1
    | none =>
      refine ih c1 h1 ?_
      intro w hw
      obtain ⟨a, b, d⟩ := hf w (List.mem_cons_of_mem _ hw)
      exact ⟨a, b, fun i x n hx hn => by simp only at h2; rw [h2]; exact d i x n hx hn⟩

theorem addVariable_consistent (c p : Coll) (h : Consistent c) (hp : Consistent p) : Consistent (addVariable c p false).1 := by
  obtain ⟨h1, h2, h3, h4, h5⟩ := addDims_spec p.dims c h.dimKeys
  unfold addVariable
  generalize hr : addDims false c p.dims = r at h1 h2 h3 h4 h5
  obtain ⟨c1, e1⟩ := r
  have hc1 := consistent_dims h h1 h2 h3 h4
  cases e1 with
  | some e => exact hc1
  | none =>
    refine addVars_spec _ c1 hc1 ?_
    intro v hv
    obtain ⟨⟨k, w⟩, hkv, rfl⟩ := List.mem_map.1 hv
    obtain ⟨r1, r2⟩ := hp.rank k w hkv
    exact ⟨r1, r2, fun i d n hd hn => h5 rfl _ (hp.sizes k w hkv i d n hd hn)⟩

theorem dropName_consistent (c : Coll) (n : String) (h : Consistent c) : Consistent (dropName c n) := by
  refine ⟨h.dimKeys, Dict.nodup_erase _ _ h.varKeys, ?_, ?_, ?_, ?_⟩
  · intro k v hv; exact h.named k v ((Dict.mem_erase _ _ _ _).1 hv).2
  · intro k v hv; exact h.rank k v ((Dict.mem_erase _ _ _ _).1 hv).2
  · intro k v hv; exact h.sizes k v ((Dict.mem_erase _ _ _ _).1 hv).2
  · intro t ns ht
    simp only [dropName, List.mem_map] at ht
    obtain ⟨⟨t', ns'⟩, hm, he⟩ := ht
    injection he with e1 e2
    subst e1 e2
    obtain ⟨g1, g2⟩ := h.tagged _ _ hm
    refine ⟨g1.erase _, ?_⟩
    intro x hx
    have hx' := (g1.mem_erase_iff).1 hx
    exact (Dict.keys_erase _ _ _).2 ⟨hx'.1, g2 x hx'.2⟩

theorem removeOrphaned_consistent (c : Coll) (ds : List String) (h : Consistent c) : Consistent (removeOrphaned c ds) := by
  refine ⟨?_, h.varKeys, h.named, h.rank, ?_, h.tagged⟩
  · have : (removeOrphaned c ds).dims.map (·.1) = (c.dims.map (·.1)).filter (fun x => !(ds.contains x && !used c x)) := by
      simp only [removeOrphaned]; rw [List.filter_map]; rfl
    rw [this]
    exact List.Pairwise.filter _ h.dimKeys
  · intro k v hv i d n hd hn
    have hm := h.sizes k v hv i d n hd hn
    have hu : used c d = true := by
      unfold used
      rw [List.any_eq_true]
      exact ⟨(k, v), hv, by simpa using List.mem_of_getElem? hd⟩
    simp only [removeOrphaned, List.mem_filter]
    exact ⟨hm, by simp [hu]⟩

theorem removeVariable_consistent (c : Coll) (n : String) (b : Bool) (h : Consistent c) : Consistent (removeVariable c n b).1 := by
  unfold removeVariable
  split
  · exact h
  · split
    · exact h
    · exact removeOrphaned_consistent _ _ (dropName_consistent _ _ h)
    · exact removeOrphaned_consistent _ _ (dropName_consistent _ _ (dropName_consistent _ _ h))

theorem set_getElem?_cases {α : Type} (l : List α) (k i : Nat) (x y : α) (h : (l.set k x)[i]? = some y) :
    (i = k ∧ y = x) ∨ (i ≠ k ∧ l[i]? = some y) := by
  rw [List.getElem?_set] at h
  split at h
  · split at h
    · injection h with h; exact .inl ⟨by omega, h.symm⟩
    · cases h
  · exact .inr ⟨by omega, h⟩

theorem renameDimension_consistent (c : Coll) (old new : String) (h : Consistent c) (hn : old = new ∨ new ∉ c.dims.map (·.1)) :
    Consistent (renameDimension c old new).1 := by
  unfold renameDimension
  cases hg : Dict.get? c.dims old with
  | none => exact h
  | some s =>
    have hold := Dict.get?_mem hg
    have hkeys : (List.map (fun kv : String × CVar => (kv.1, renameIn old new kv.2)) c.vars).map (·.1) = c.vars.map (·.1) := by
      rw [List.map_map]; rfl
    refine ⟨Dict.nodup_set _ _ _ (Dict.nodup_erase _ _ h.dimKeys), by simp only; rw [hkeys]; exact h.varKeys, ?_, ?_, ?_, ?_⟩
    · intro k v hv
      obtain ⟨⟨k', w⟩, hw, he⟩ := List.mem_map.1 hv
      injection he with e1 e2
      subst e1 e2
      have := h.named k' w hw
      simp only [renameIn]
      split <;> exact this
    · intro k v hv
      obtain ⟨⟨k', w⟩, hw, he⟩ := List.mem_map.1 hv
      injection he with e1 e2
      subst e1 e2
      obtain ⟨r1, r2⟩ := h.rank k' w hw
      simp only [renameIn]
      split
      · rename_i hc
        refine ⟨by simpa using r1, ?_⟩
        have hmem : old ∈ w.dims := by simpa using hc
        rcases hn with rfl | hn
        · have hlt := List.idxOf_lt_length_of_mem hmem
          have : w.dims.set (w.dims.idxOf old) old = w.dims := by
            apply List.ext_getElem?
            intro i
            rw [List.getElem?_set]
            split
            · rename_i e; subst e; simp [hlt, List.getElem_idxOf hlt]
            · rfl
          rw [this]; exact r2
        · have hnew : new ∉ w.dims := by
            intro hm
            obtain ⟨i, hi⟩ := List.mem_iff_getElem?.1 hm
            have hlt := (List.getElem?_eq_some_iff.1 hi).1
            exact hn (List.mem_map.2 ⟨_, h.sizes k' w hw i new _ hi (List.getElem?_eq_getElem (by omega)), rfl⟩)
          rw [List.Nodup, List.pairwise_iff_getElem] 
          intro i j hi hj hij heq
          have hi' := List.getElem?_eq_getElem hi
          have hj' := List.getElem?_eq_getElem hj
          rw [← heq] at hj'
          have hil : i < w.dims.length := by simpa using hi
          rcases set_getElem?_cases _ _ _ _ _ hi' with ⟨a1, a2⟩ | ⟨a1, a2⟩ <;>
            rcases set_getElem?_cases _ _ _ _ _ hj' with ⟨b1, b2⟩ | ⟨b1, b2⟩
          · omega
          · rw [a2] at b2; exact hnew (List.mem_of_getElem? b2)
          · rw [b2] at a2; exact hnew (List.mem_of_getElem? a2)
          · have := (List.getElem?_inj hil r2).1 (a2.trans b2.symm)
            omega
      · exact ⟨r1, r2⟩
    · intro k v hv i d n hd hsz
      obtain ⟨⟨k', w⟩, hw, he⟩ := List.mem_map.1 hv
      injection he with e1 e2
      subst e1 e2
      obtain ⟨r1, r2⟩ := h.rank k' w hw
      have hw' := h.sizes k' w hw
      simp only [renameIn] at hd hsz
      split at hd
      · rename_i hc
        rw [if_pos hc] at hsz
        simp only at hd hsz
        have hmem : old ∈ w.dims := by simpa using hc
        have hlt := List.idxOf_lt_length_of_mem hmem
        have hget : w.dims[w.dims.idxOf old]? = some old := by rw [List.getElem?_eq_getElem hlt, List.getElem_idxOf hlt]
        rcases set_getElem?_cases _ _ _ _ _ hd with ⟨a1, a2⟩ | ⟨a1, a2⟩
        · subst a1 a2
          have := hw' _ old n hget hsz
          have := Dict.mem_unique h.dimKeys this hold
          subst this
          exact (Dict.mem_set _ _ _ _ _).2 (.inl ⟨rfl, rfl⟩)
        · have hm := hw' i d n a2 hsz
          have hdo : d ≠ old := by
            intro e
            subst e
            have hil := (List.getElem?_eq_some_iff.1 a2).1
            exact a1 ((List.getElem?_inj hil r2).1 (by rw [a2, hget]))
          refine (Dict.mem_set _ _ _ _ _).2 (.inr ⟨?_, (Dict.mem_erase _ _ _ _).2 ⟨hdo, hm⟩⟩)
          rcases hn with rfl | hn
          · exact hdo
          · intro e; subst e; exact hn (List.mem_map.2 ⟨_, hm, rfl⟩)
      · rename_i hc
        rw [if_neg hc] at hsz
        have hm := hw' i d n hd hsz
        have hdo : d ≠ old := by
          intro e; subst e; exact hc (by simpa using List.mem_of_getElem? hd)
        refine (Dict.mem_set _ _ _ _ _).2 (.inr ⟨?_, (Dict.mem_erase _ _ _ _).2 ⟨hdo, hm⟩⟩)
        rcases hn with rfl | hn
        · exact hdo
        · intro e; subst e; exact hn (List.mem_map.2 ⟨_, hm, rfl⟩)
    · intro t ns ht
      simp only
      rw [hkeys]
      exact h.tagged t ns ht

theorem appendNames_spec (ts : List String) : ∀ (ns r : List String), appendNames ns ts = some r → ns.Nodup →
    r.Nodup ∧ ∀ x ∈ r, x ∈ ns ∨ x ∈ ts := by
  induction ts with
  | nil => intro ns r h hn; injection h with h; subst h; exact ⟨hn, fun x hx => .inl hx⟩
  | cons t ts ih =>
    intro ns r h hn
    rw [appendNames] at h
    split at h
    · cases h
    · rename_i hc
      have hc : t ∉ ns := by simpa using hc
      obtain ⟨h1, h2⟩ := ih _ r h (by
        rw [List.nodup_append]
        refine ⟨hn, by simp, ?_⟩
        intro a ha b hb e
        simp only [List.mem_singleton] at hb
        subst hb e; exact hc ha)
      refine ⟨h1, ?_⟩
      intro x hx
      rcases h2 x hx with h | h
      · rcases List.mem_append.1 h with h | h
        · exact .inl h
        · simp only [List.mem_singleton] at h; subst h; exact .inr (by simp)
      · exact .inr (List.mem_cons_of_mem _ h)

theorem setTag_consistent (c : Coll) (t : String) (ns : List String) (h : Consistent c) (hn : ns.Nodup)
    (hs : ∀ n ∈ ns, n ∈ c.vars.map (·.1)) : Consistent { c with tags := Dict.set c.tags t ns } := by
  refine ⟨h.dimKeys, h.varKeys, h.named, h.rank, h.sizes, ?_⟩
  intro t' ns' ht
  rcases (Dict.mem_set _ _ _ _ _).1 ht with ⟨rfl, rfl⟩ | ⟨_, ht⟩
  · exact ⟨hn, hs⟩
  · exact h.tagged t' ns' ht

theorem appendToTags_consistent (c : Coll) (t : String) (ns : List String) (cr : Bool) (h : Consistent c)
    (hs : ∀ n ∈ ns, n ∈ c.vars.map (·.1)) : Consistent (appendToTags c t ns cr).1 := by
  unfold appendToTags
  split
  · split
    · split
      · exact setTag_consistent c t [] h (by simp) (by simp)
      · rename_i r hr
        obtain ⟨h1, h2⟩ := appendNames_spec ns [] r hr (by simp)
        exact setTag_consistent c t r h h1 (fun n hn => hs n ((h2 n hn).resolve_left (by simp)))
    · exact h
  · rename_i old hold
    have ho := h.tagged t old (Dict.get?_mem hold)
    split
    · exact h
    · rename_i r hr
      obtain ⟨h1, h2⟩ := appendNames_spec ns old r hr ho.1
      refine setTag_consistent c t r h h1 (fun n hn => ?_)
      rcases h2 n hn with h | h
      · exact ho.2 n h
      · exact hs n h

theorem setName_consistent (c : Coll) (old new : String) (h : Consistent c)
    (hn : old = new ∨ (new ∉ c.vars.map (·.1) ∧ ∀ t ns, (t, ns) ∈ c.tags → old ∉ ns)) : Consistent (setName c old new).1 := by
  unfold setName
  cases hg : Dict.get? c.vars old with
  | none => exact h
  | some v =>
    have hold := Dict.get?_mem hg
    refine ⟨h.dimKeys, Dict.nodup_set _ _ _ (Dict.nodup_erase _ _ h.varKeys), ?_, ?_, ?_, ?_⟩
    · intro k w hw
      rcases (Dict.mem_set _ _ _ _ _).1 hw with ⟨rfl, rfl⟩ | ⟨_, hw⟩
      · rfl
      · exact h.named k w ((Dict.mem_erase _ _ _ _).1 hw).2
    · intro k w hw
      rcases (Dict.mem_set _ _ _ _ _).1 hw with ⟨rfl, rfl⟩ | ⟨_, hw⟩
      · exact h.rank old v hold
      · exact h.rank k w ((Dict.mem_erase _ _ _ _).1 hw).2
    · intro k w hw
      rcases (Dict.mem_set _ _ _ _ _).1 hw with ⟨rfl, rfl⟩ | ⟨_, hw⟩
      · exact h.sizes old v hold
      · exact h.sizes k w ((Dict.mem_erase _ _ _ _).1 hw).2
    · intro t ns ht
      obtain ⟨h1, h2⟩ := h.tagged t ns ht
      refine ⟨h1, ?_⟩
      intro n hmem
      simp only
      rw [Dict.keys_set]
      have hin := h2 n hmem
      by_cases hno : n = old
      · rcases hn with rfl | ⟨_, hn⟩
        · subst hno
          split
          · assumption
          · simp
        · exact absurd (hno ▸ hmem) (hn t ns ht)
      · have := (Dict.keys_erase c.vars old n).2 ⟨hno, hin⟩
        split
        · exact this
        · exact List.mem_append_left _ this

/-- What a variable brings with it: itself and its dimensions. -/
def demoTas : Coll := { dims := [("time", 3), ("x", 2)], vars := [("tas", ⟨"tas", ["time", "x"], [3, 2], none⟩)] }
def demoTime : Coll where
  dims := [("time", 3), ("bnds", 2)]
  vars := [("time", ⟨"time", ["time"], [3], some "time_bnds"⟩), ("time_bnds", ⟨"time_bnds", ["time", "bnds"], [3, 2], none⟩)]

theorem demoTas_consistent : Consistent demoTas := by
  refine ⟨by decide, by decide, ?_, ?_, ?_, ?_⟩
  · intro k v h; simp [demoTas] at h; obtain ⟨rfl, rfl⟩ := h; rfl
  · intro k v h; simp [demoTas] at h; obtain ⟨rfl, rfl⟩ := h; exact ⟨rfl, by decide⟩
  · intro k v h i d n hd hn
    simp [demoTas] at h; obtain ⟨rfl, rfl⟩ := h
    match i with
    | 0 => simp at hd hn; subst hd hn; simp [demoTas]
    | 1 => simp at hd hn; subst hd hn; simp [demoTas]
    | i + 2 => simp at hd
  · intro t ns h; simp [demoTas] at h

theorem demoTime_consistent : Consistent demoTime := by
  refine ⟨by decide, by decide, ?_, ?_, ?_, ?_⟩
  · intro k v h; simp [demoTime] at h; rcases h with ⟨rfl, rfl⟩ | ⟨rfl, rfl⟩ <;> rfl
  · intro k v h; simp [demoTime] at h; rcases h with ⟨rfl, rfl⟩ | ⟨rfl, rfl⟩ <;> exact ⟨rfl, by decide⟩
  · intro k v h i d n hd hn
    simp [demoTime] at h; rcases h with ⟨rfl, rfl⟩ | ⟨rfl, rfl⟩
    · match i with
      | 0 => simp at hd hn; subst hd hn; simp [demoTime]
      | i + 1 => simp at hd
    · match i with
      | 0 => simp at hd hn; subst hd hn; simp [demoTime]
      | 1 => simp at hd hn; subst hd hn; simp [demoTime]
      | i + 2 => simp at hd
  · intro t ns h; simp [demoTime] at h

end Ocgis.Props
