import Verif.Model.Extract
import Verif.Spec.Extract
import Verif.Proofs.Collection
namespace Ocgis.Proofs.Extract
open Ocgis.Collection Ocgis.Spec Ocgis.Extract
open Ocgis.Props

theorem get?_of_mem {α : Type} {d : Dict α} (h : (d.map (·.1)).Nodup) {k : String} {x : α} (hx : (k, x) ∈ d) : Dict.get? d k = some x := by
  cases hg : Dict.get? d k with
  | none => exact absurd (List.mem_map.2 ⟨_, hx, rfl⟩) (Dict.get?_none.1 hg)
  | some y => rw [Dict.mem_unique h (Dict.get?_mem hg) hx]

theorem mem_dims (c : Coll) (h : Consistent c) {k : String} {v : CVar} (hv : (k, v) ∈ c.vars) {d : String} (hd : d ∈ v.dims) :
    d ∈ c.dims.map (·.1) := by
  obtain ⟨i, hi, he⟩ := List.getElem_of_mem hd
  have hr := (h.rank k v hv).1
  have := h.sizes k v hv i d (v.shape[i]'(by omega)) (by rw [List.getElem?_eq_getElem hi, he]) (List.getElem?_eq_getElem (by omega))
  exact List.mem_map.2 ⟨_, this, rfl⟩

theorem used_iff (x : Coll) (d : String) : used x d = true ↔ ∃ k w, (k, w) ∈ x.vars ∧ d ∈ w.dims := by
  simp only [used, List.any_eq_true, List.contains_eq_mem, decide_eq_true_eq]
  constructor
  · rintro ⟨⟨k, w⟩, h1, h2⟩; exact ⟨k, w, h1, h2⟩
  · rintro ⟨k, w, h1, h2⟩; exact ⟨(k, w), h1, h2⟩

theorem mem_removeOrphaned (x : Coll) (ds : List String) (d : String) (n : Nat) : (d, n) ∈ (removeOrphaned x ds).dims ↔ (d, n) ∈ x.dims ∧
    ((∃ k w, (k, w) ∈ x.vars ∧ d ∈ w.dims) ∨ d ∉ ds) := by
  simp only [removeOrphaned, List.mem_filter]
  refine and_congr Iff.rfl ?_
  rw [← used_iff]
  by_cases hc : d ∈ ds <;> by_cases hu' : used x d = true <;> simp [hc, hu']

/-- Removal without bounds. -/
theorem removeVariable_false (c : Coll) (h : Consistent c) (n : String) (v : CVar) (hv : (n, v) ∈ c.vars) :
    removeVariable c n false = (removeOrphaned (dropName c n) v.dims, none) := by
  simp [removeVariable, get?_of_mem h.varKeys hv, boundsOf]

theorem mem_drop (c : Coll) (n k : String) (u : CVar) : (k, u) ∈ (dropName c n).vars ↔ k ≠ n ∧ (k, u) ∈ c.vars := by
  simp only [dropName, Dict.mem_erase]

theorem leftOver_one (c : Coll) (h : Consistent c) (n : String) (v : CVar) (hv : (n, v) ∈ c.vars) :
    LeftOver c (removeOrphaned (dropName c n) v.dims) (· = n) := by
  constructor
  · intro k u
    have : (removeOrphaned (dropName c n) v.dims).vars = (dropName c n).vars := rfl
    rw [this, mem_drop]; exact ⟨fun ⟨a, b⟩ => ⟨b, a⟩, fun ⟨a, b⟩ => ⟨b, a⟩⟩
  · intro d m
    rw [mem_removeOrphaned]
    refine and_congr Iff.rfl (or_congr ?_ ?_)
    · constructor
      · rintro ⟨k, w, h1, h2⟩; rw [mem_drop] at h1; exact ⟨k, w, h1.2, h1.1, h2⟩
      · rintro ⟨k, w, h1, h2, h3⟩; exact ⟨k, w, (mem_drop ..).2 ⟨h2, h1⟩, h3⟩
    · refine not_congr ⟨fun hd => ⟨n, v, hv, rfl, hd⟩, ?_⟩
      rintro ⟨k, w, h1, rfl, h2⟩
      rw [Dict.mem_unique h.varKeys hv h1]; exact h2

theorem leftOver_congr {c r : Coll} {p q : String → Prop} (h : LeftOver c r p) (hpq : ∀ k, k ∈ c.vars.map (·.1) → (p k ↔ q k)) : LeftOver c r q := by
  have hm : ∀ {k u}, (k, u) ∈ c.vars → (p k ↔ q k) := fun hk => hpq _ (List.mem_map.2 ⟨_, hk, rfl⟩)
  constructor
  · intro k u
    rw [h.vars]
    exact ⟨fun ⟨a, b⟩ => ⟨a, fun x => b ((hm a).2 x)⟩, fun ⟨a, b⟩ => ⟨a, fun x => b ((hm a).1 x)⟩⟩
  · intro d n
    rw [h.dims]
    refine and_congr Iff.rfl (or_congr ?_ (not_congr ?_))
    · exact ⟨fun ⟨k, u, a, b, e⟩ => ⟨k, u, a, fun x => b ((hm a).2 x), e⟩, fun ⟨k, u, a, b, e⟩ => ⟨k, u, a, fun x => b ((hm a).1 x), e⟩⟩
    · exact ⟨fun ⟨k, u, a, b, e⟩ => ⟨k, u, a, (hm a).1 b, e⟩, fun ⟨k, u, a, b, e⟩ => ⟨k, u, a, (hm a).2 b, e⟩⟩

theorem leftOver_trans {c c1 c2 : Coll} {p q : String → Prop} (h1 : LeftOver c c1 p) (h2 : LeftOver c1 c2 q) :
    LeftOver c c2 fun k => p k ∨ q k := by
  constructor
  · intro k u
    rw [h2.vars, h1.vars, not_or]
    exact and_assoc
  · intro d n
    rw [h2.dims, h1.dims, and_assoc]
    refine and_congr Iff.rfl ?_
    by_cases hA : ∃ k u, (k, u) ∈ c.vars ∧ ¬(p k ∨ q k) ∧ d ∈ u.dims
    · obtain ⟨k, u, a, b, e⟩ := hA
      have b' := not_or.1 b
      exact ⟨fun _ => .inl ⟨k, u, a, b, e⟩, fun _ => ⟨.inl ⟨k, u, a, b'.1, e⟩, .inl ⟨k, u, (h1.vars k u).2 ⟨a, b'.1⟩, b'.2, e⟩⟩⟩
    · constructor
      · rintro ⟨x, y⟩
        right
        rintro ⟨k, u, a, b, e⟩
        have hq : ∀ k u, (k, u) ∈ c.vars → ¬p k → d ∈ u.dims → False := by
          intro k u ha hp hd
          rcases y with y | y
          · obtain ⟨k', u', a', b', e'⟩ := y
            have := (h1.vars k' u').1 a'
            exact hA ⟨k', u', this.1, not_or.2 ⟨this.2, b'⟩, e'⟩
          · by_cases hqk : q k
            · exact y ⟨k, u, (h1.vars k u).2 ⟨ha, hp⟩, hqk, hd⟩
            · exact hA ⟨k, u, ha, not_or.2 ⟨hp, hqk⟩, hd⟩
        rcases x with ⟨k', u', a', b', e'⟩ | x
        · exact hq k' u' a' b' e'
        · by_cases hp : p k
          · exact x ⟨k, u, a, hp, e⟩
          · exact hq k u a hp e
      · rintro (⟨k, u, a, b, e⟩ | x)
        · exact absurd ⟨k, u, a, b, e⟩ hA
        · refine ⟨.inr fun ⟨k, u, a, b, e⟩ => x ⟨k, u, a, .inl b, e⟩, .inr ?_⟩
          rintro ⟨k, u, a, b, e⟩
          exact x ⟨k, u, ((h1.vars k u).1 a).1, .inr b, e⟩

theorem inOrder_refl (c : Coll) : InOrderOf c c := ⟨List.Sublist.refl _, List.Sublist.refl _⟩

theorem inOrder_trans {a b c : Coll} (h1 : InOrderOf a b) (h2 : InOrderOf b c) : InOrderOf a c := ⟨h2.1.trans h1.1, h2.2.trans h1.2⟩

theorem inOrder_drop (c : Coll) (n : String) : InOrderOf c (dropName c n) := ⟨List.filter_sublist, List.Sublist.refl _⟩

theorem inOrder_orphan (c : Coll) (ds : List String) : InOrderOf c (removeOrphaned c ds) := ⟨List.Sublist.refl _, List.filter_sublist⟩

theorem leftOver_nil (c : Coll) : LeftOver c c (· ∈ ([] : List String)) := by
  constructor
  · intro k u; simp
  · intro d n; simp

theorem removeEach_false (ns : List String) : ∀ c : Coll, Consistent c → ns.Nodup → (∀ n ∈ ns, n ∈ c.vars.map (·.1)) →
    ∃ c', removeEach false c ns = (c', none) ∧ LeftOver c c' (· ∈ ns) ∧ Consistent c' ∧ InOrderOf c c' := by
  induction ns with
  | nil => intro c h _ _; exact ⟨c, rfl, leftOver_nil c, h, inOrder_refl c⟩
  | cons n ns ih =>
    intro c h hn hs
    obtain ⟨⟨k, v⟩, hv, e⟩ := List.mem_map.1 (hs n List.mem_cons_self)
    simp only at e; subst e
    have hr := removeVariable_false c h k v hv
    have h1 := leftOver_one c h k v hv
    have hc1 : Consistent (removeOrphaned (dropName c k) v.dims) := removeOrphaned_consistent _ _ (dropName_consistent _ _ h)
    have hn' := List.nodup_cons.1 hn
    obtain ⟨c', e, l, hc', ho⟩ := ih (removeOrphaned (dropName c k) v.dims) hc1 hn'.2 (by
      intro n hm
      obtain ⟨⟨m, w⟩, hw, e⟩ := List.mem_map.1 (hs n (List.mem_cons_of_mem _ hm))
      simp only at e; subst e
      exact List.mem_map.2 ⟨(m, w), (h1.vars m w).2 ⟨hw, fun e => hn'.1 (e ▸ hm)⟩, rfl⟩)
    refine ⟨c', ?_, leftOver_congr (leftOver_trans h1 l) (fun m _ => by simp), hc', inOrder_trans (inOrder_trans (inOrder_drop c k) (inOrder_orphan _ _)) ho⟩
    rw [removeEach, hr]
    exact e

/-! ## `extract` -/

/-- The names that are taken. -/
def takenNames (name : String) (v : CVar) (kb : Bool) : List String := name :: (if kb then v.bounds.toList else [])

theorem boundsOf_there (c : Coll) (h : Consistent c) (v : CVar) (kb : Bool) (hb : kb = true → BoundsThere c v) :
    (boundsOf c v kb = .ok none ∧ (if kb then v.bounds.toList else []) = []) ∨
      ∃ b bv, boundsOf c v kb = .ok (some bv) ∧ (b, bv) ∈ c.vars ∧ bv.name = b ∧ v.bounds = some b ∧ kb = true := by
  cases kb with
  | false => left; simp [boundsOf]
  | true =>
    cases hv : v.bounds with
    | none => left; simp [boundsOf, hv]
    | some b =>
      right
      obtain ⟨⟨b', bv⟩, hm, e⟩ := List.mem_map.1 (hb rfl b hv)
      simp only at e; subst e
      exact ⟨b', bv, by simp [boundsOf, hv, get?_of_mem h.varKeys hm], hm, h.named _ _ hm, rfl, rfl⟩

theorem keepNames_eq (c : Coll) (h : Consistent c) (name : String) (v : CVar) (kb : Bool) (hb : kb = true → BoundsThere c v) :
    keepNames c name v kb = .ok (takenNames name v kb) := by
  rcases boundsOf_there c h v kb hb with ⟨e, e'⟩ | ⟨b, bv, e, hm, hn, hv, hk⟩
  · simp [keepNames, e, takenNames, e']
  · subst hk; simp [keepNames, e, takenNames, hv, hn]

/-- What extraction makes of the copy. -/
def takenColl (c : Coll) (name : String) (v : CVar) (kb : Bool) : Coll :=
  { c with
    vars := c.vars.filter fun kv => (takenNames name v kb).contains kv.1
    dims := c.dims.filter fun kv => c.vars.any fun u => (takenNames name v kb).contains u.1 && u.2.dims.contains kv.1 }

theorem takenColl_taken (c : Coll) (name : String) (v : CVar) (kb : Bool) :
    TakenOut c (takenColl c name v kb) (fun k => k = name ∨ kb = true ∧ v.bounds = some k) := by
  have hm : ∀ k, (takenNames name v kb).contains k = true ↔ (k = name ∨ kb = true ∧ v.bounds = some k) := by
    intro k; cases kb <;> simp [takenNames]
  constructor
  · intro k u; simp only [takenColl, List.mem_filter, hm]
  · intro d n
    simp only [takenColl, List.mem_filter, List.any_eq_true, Bool.and_eq_true]
    refine and_congr Iff.rfl ?_
    simp only [hm]
    simp only [List.contains_eq_mem, decide_eq_true_eq]
    exact ⟨fun ⟨⟨k, u⟩, a, b, e⟩ => ⟨k, u, a, b, e⟩, fun ⟨k, u, a, b, e⟩ => ⟨⟨k, u⟩, a, b, e⟩⟩

theorem takenColl_order (c : Coll) (name : String) (v : CVar) (kb : Bool) : InOrderOf c (takenColl c name v kb) :=
  ⟨List.filter_sublist, List.filter_sublist⟩

theorem takenOut_consistent {c r : Coll} {mine : String → Prop} (h : Consistent c) (ht : TakenOut c r mine) (hk : (r.vars.map (·.1)).Nodup)
    (hd : (r.dims.map (·.1)).Nodup) : ConsistentButTags r :=
  ⟨hd, hk, fun k v hm => h.named k v ((ht.vars k v).1 hm).1, fun k v hm => h.rank k v ((ht.vars k v).1 hm).1,
    fun k v hm i d n e1 e2 => by
      have hm' := (ht.vars k v).1 hm
      exact (ht.dims d n).2 ⟨h.sizes k v hm'.1 i d n e1 e2, k, v, hm'.1, hm'.2, List.mem_of_getElem? e1⟩,
    by intro t ns hm; simp at hm⟩

theorem order_consistent {c r : Coll} {mine : String → Prop} (h : Consistent c) (ht : TakenOut c r mine) (ho : InOrderOf c r) :
    ConsistentButTags r :=
  takenOut_consistent h ht (h.varKeys.sublist (ho.1.map _)) (h.dimKeys.sublist (ho.2.map _))

theorem dimsFound_of (c x : Coll) (h : Consistent c) {k : String} {v : CVar} (hv : (k, v) ∈ c.vars) (hd : x.dims = c.dims) : dimsFound x v = true := by
  simp only [dimsFound, List.all_eq_true]
  intro d hm
  rw [Dict.has_iff, hd]
  exact mem_dims c h hv hm

/-- The last part. -/
theorem dropDims_eq (c : Coll) (h : Consistent c) (name : String) (v : CVar) (hv : (name, v) ∈ c.vars) (kb : Bool) (hb : kb = true → BoundsThere c v)
    (rem : Dict Nat) (hr : ∀ d, d ∈ rem.map (·.1) → d ∈ c.dims.map (·.1))
    (hk : ∀ d, d ∈ c.dims.map (·.1) → d ∉ rem.map (·.1) → ∃ k u, (k, u) ∈ c.vars ∧ k ∈ takenNames name v kb ∧ d ∈ u.dims) :
    dropDims (onlyVars c (takenNames name v kb)) name kb rem = .ok (takenColl c name v kb) := by
  have hkeys : ((onlyVars c (takenNames name v kb)).vars.map (·.1)).Nodup := h.varKeys.sublist (List.filter_sublist.map _)
  have hme : ∀ k u, (k, u) ∈ c.vars → k ∈ takenNames name v kb → (k, u) ∈ (onlyVars c (takenNames name v kb)).vars := by
    intro k u a b
    exact List.mem_filter.2 ⟨a, by simpa using b⟩
  have hg : Dict.get? (onlyVars c (takenNames name v kb)).vars name = some v :=
    get?_of_mem hkeys (hme name v hv (by simp [takenNames]))
  -- the names to keep
  have hnames : ∃ keep, dimNames (onlyVars c (takenNames name v kb)) v kb = .ok keep ∧
      ∀ d, d ∈ keep ↔ ∃ k u, (k, u) ∈ c.vars ∧ k ∈ takenNames name v kb ∧ d ∈ u.dims := by
    have hf : dimsFound (onlyVars c (takenNames name v kb)) v = true := dimsFound_of c _ h hv rfl
    rcases boundsOf_there c h v kb hb with ⟨e, e'⟩ | ⟨b, bv, e, hm, hn, hvb, hkb⟩
    · have e2 : boundsOf (onlyVars c (takenNames name v kb)) v kb = .ok none := by
        cases kb with
        | false => simp [boundsOf]
        | true => cases hvb : v.bounds with
          | none => simp [boundsOf, hvb]
          | some b => simp [hvb] at e'
      refine ⟨v.dims, by simp [dimNames, hf, e2], fun d => ⟨fun hd => ⟨name, v, hv, by simp [takenNames], hd⟩, ?_⟩⟩
      rintro ⟨k, u, a, b, e⟩
      simp only [takenNames, e', List.mem_singleton] at b
      subst b
      rw [Dict.mem_unique h.varKeys hv a]; exact e
    · subst hkb
      have hin : b ∈ takenNames name v true := by simp [takenNames, hvb]
      have e2 : boundsOf (onlyVars c (takenNames name v true)) v true = .ok (some bv) := by
        simp [boundsOf, hvb, get?_of_mem hkeys (hme b bv hm hin)]
      have hf2 : dimsFound (onlyVars c (takenNames name v true)) bv = true := dimsFound_of c _ h hm rfl
      refine ⟨v.dims ++ bv.dims, by simp [dimNames, hf, e2, hf2], fun d => ?_⟩
      rw [List.mem_append]
      constructor
      · rintro (hd | hd)
        · exact ⟨name, v, hv, by simp [takenNames], hd⟩
        · exact ⟨b, bv, hm, hin, hd⟩
      · rintro ⟨k, u, a, b', e⟩
        simp only [takenNames, hvb, if_true, Option.toList, List.mem_cons, List.not_mem_nil, or_false] at b'
        rcases b' with rfl | rfl
        · left; rw [Dict.mem_unique h.varKeys hv a]; exact e
        · right; rw [Dict.mem_unique h.varKeys hm a]; exact e
  obtain ⟨keep, hkeep, hmem⟩ := hnames
  have hall : ((rem.map (·.1)).filter fun d => !keep.contains d).all (Dict.has (onlyVars c (takenNames name v kb)).dims) = true := by
    rw [List.all_eq_true]
    intro d hd
    rw [Dict.has_iff]
    exact hr d (List.mem_filter.1 hd).1
  simp only [dropDims, hg, hkeep, hall, if_true]
  refine congrArg Except.ok ?_
  simp only [takenColl, onlyVars]
  congr 1
  refine List.filter_congr ?_
  rintro ⟨d, n⟩ hd
  have hd' : d ∈ c.dims.map (·.1) := List.mem_map.2 ⟨_, hd, rfl⟩
  have h1 : ((c.vars.any fun u => (takenNames name v kb).contains u.1 && u.2.dims.contains d) = true) ↔ d ∈ keep := by
    rw [hmem]
    simp only [List.any_eq_true, Bool.and_eq_true, List.contains_eq_mem, decide_eq_true_eq]
    exact ⟨fun ⟨⟨k, u⟩, a, b, e⟩ => ⟨k, u, a, b, e⟩, fun ⟨k, u, a, b, e⟩ => ⟨⟨k, u⟩, a, b, e⟩⟩
  rw [Bool.eq_iff_iff, h1]
  simp only [Bool.not_eq_true', List.contains_eq_mem, decide_eq_false_iff_not, List.mem_filter, decide_eq_true_eq, Bool.not_eq_true,
    decide_eq_false_iff_not, not_and, Classical.not_not]
  constructor
  · intro hx
    by_cases hrm : d ∈ rem.map (·.1)
    · exact hx hrm
    · exact (hmem d).2 (hk d hd' hrm)
  · intro hx _; exact hx

theorem extract_eq (c : Coll) (h : Consistent c) (name : String) (v : CVar) (hv : (name, v) ∈ c.vars) (kb : Bool) (hb : kb = true → BoundsThere c v) :
    extract c name kb false = (c, .ok (takenColl c name v kb)) := by
  simp only [extract, get?_of_mem h.varKeys hv, keepNames_eq c h name v kb hb]
  rw [dropDims_eq c h name v hv kb hb c.dims (fun _ h => h) (fun d h1 h2 => absurd h1 h2)]
  rfl

/-- Removal of a variable that has no bounds. -/
theorem removeVariable_none (c : Coll) (h : Consistent c) (n : String) (v : CVar) (hv : (n, v) ∈ c.vars) (hb : v.bounds = none) :
    removeVariable c n true = (removeOrphaned (dropName c n) v.dims, none) := by
  simp [removeVariable, get?_of_mem h.varKeys hv, boundsOf, hb]

theorem extract_clean (c : Coll) (h : Consistent c) (name : String) (v : CVar) (hv : (name, v) ∈ c.vars) (hb : v.bounds = none) (kb : Bool) :
    extract c name kb true = (removeOrphaned (dropName c name) v.dims, .ok (takenColl c name v kb)) := by
  have hbt : kb = true → BoundsThere c v := by intro _ b e; rw [hb] at e; cases e
  have ht : takenNames name v kb = [name] := by cases kb <;> simp [takenNames, hb]
  simp only [extract, get?_of_mem h.varKeys hv, keepNames_eq c h name v kb hbt, if_true]
  have hr : removeEach true c (takenNames name v kb) = (removeOrphaned (dropName c name) v.dims, none) := by
    rw [ht, removeEach, removeVariable_none c h name v hv hb]; rfl
  rw [hr]
  have hl := leftOver_one c h name v hv
  simp only
  rw [dropDims_eq c h name v hv kb hbt]
  · intro d hd
    obtain ⟨⟨d', n⟩, hm, e⟩ := List.mem_map.1 hd
    simp only at e; subst e
    exact List.mem_map.2 ⟨_, ((hl.dims d' n).1 hm).1, rfl⟩
  · intro d hd hn
    obtain ⟨⟨d', n⟩, hm, e⟩ := List.mem_map.1 hd
    simp only at e; subst e
    refine ⟨name, v, hv, by simp [ht], ?_⟩
    refine Classical.byContradiction fun hc => hn (List.mem_map.2 ⟨(d', n), (hl.dims d' n).2 ⟨hm, .inr ?_⟩, rfl⟩)
    rintro ⟨k, u, a, rfl, e⟩
    exact hc (by rw [Dict.mem_unique h.varKeys hv a]; exact e)

/-- Removal of a variable with its bounds. -/
theorem removeVariable_bounds (c : Coll) (h : Consistent c) (n : String) (v : CVar) (hv : (n, v) ∈ c.vars) (b : String) (bv : CVar)
    (hvb : v.bounds = some b) (hbm : (b, bv) ∈ c.vars) :
    removeVariable c n true = (removeOrphaned (dropName (dropName c n) b) (v.dims ++ bv.dims), none) := by
  have hbn := h.named b bv hbm
  simp [removeVariable, get?_of_mem h.varKeys hv, boundsOf, hvb, get?_of_mem h.varKeys hbm, hbn]

theorem leftOver_two (c : Coll) (h : Consistent c) (n : String) (v : CVar) (hv : (n, v) ∈ c.vars) (b : String) (bv : CVar) (hbm : (b, bv) ∈ c.vars) :
    LeftOver c (removeOrphaned (dropName (dropName c n) b) (v.dims ++ bv.dims)) (fun k => k = n ∨ k = b) := by
  have hd : ∀ k u, (k, u) ∈ (dropName (dropName c n) b).vars ↔ (k, u) ∈ c.vars ∧ ¬(k = n ∨ k = b) := by
    intro k u
    rw [mem_drop, mem_drop, not_or]
    exact ⟨fun ⟨x, y, z⟩ => ⟨z, y, x⟩, fun ⟨x, y, z⟩ => ⟨z, y, x⟩⟩
  constructor
  · exact hd
  · intro d m
    rw [mem_removeOrphaned]
    refine and_congr Iff.rfl (or_congr ?_ ?_)
    · constructor
      · rintro ⟨k, w, h1, h2⟩; rw [hd] at h1; exact ⟨k, w, h1.1, h1.2, h2⟩
      · rintro ⟨k, w, h1, h2, h3⟩; exact ⟨k, w, (hd ..).2 ⟨h1, h2⟩, h3⟩
    · rw [List.mem_append]
      refine not_congr ⟨?_, ?_⟩
      · rintro (hx | hx)
        · exact ⟨n, v, hv, .inl rfl, hx⟩
        · exact ⟨b, bv, hbm, .inr rfl, hx⟩
      · rintro ⟨k, w, h1, rfl | rfl, h2⟩
        · left; rw [Dict.mem_unique h.varKeys hv h1]; exact h2
        · right; rw [Dict.mem_unique h.varKeys hbm h1]; exact h2

/-! ## Grids -/

theorem memberNames_spec (c : Coll) (h : Consistent c) (coords : List String) (hc : ∀ n ∈ coords, n ∈ c.vars.map (·.1))
    (hb : ∀ n v, n ∈ coords → (n, v) ∈ c.vars → BoundsThere c v) :
    ∃ ms, memberNames c coords = .ok ms ∧ ∀ k, k ∈ ms ↔ GridMember c coords k := by
  induction coords with
  | nil => exact ⟨[], rfl, fun k => by simp [GridMember]⟩
  | cons n ns ih =>
    obtain ⟨⟨n', v⟩, hv, e⟩ := List.mem_map.1 (hc n List.mem_cons_self)
    simp only at e; subst e
    obtain ⟨ms, hms, hmem⟩ := ih (fun m hm => hc m (List.mem_cons_of_mem _ hm)) (fun m w hm => hb m w (List.mem_cons_of_mem _ hm))
    have hg := get?_of_mem h.varKeys hv
    have hex : ∀ k, GridMember c (n' :: ns) k ↔ k = n' ∨ v.bounds = some k ∨ GridMember c ns k := by
      intro k
      simp only [GridMember, List.mem_cons]
      constructor
      · rintro ((rfl | hk) | ⟨m, w, rfl | hm, hw, hwb⟩)
        · exact .inl rfl
        · exact .inr (.inr (.inl hk))
        · rw [← Dict.mem_unique h.varKeys hv hw] at hwb; exact .inr (.inl hwb)
        · exact .inr (.inr (.inr ⟨m, w, hm, hw, hwb⟩))
      · rintro (rfl | hk | hk | ⟨m, w, hm, hw, hwb⟩)
        · exact .inl (.inl rfl)
        · exact .inr ⟨n', v, .inl rfl, hv, hk⟩
        · exact .inl (.inr hk)
        · exact .inr ⟨m, w, .inr hm, hw, hwb⟩
    rcases boundsOf_there c h v true (fun _ => hb n' v List.mem_cons_self hv) with ⟨e, e'⟩ | ⟨b, bv, e, hm, hn, hvb, _⟩
    · have hnone : v.bounds = none := by cases hvb : v.bounds with
        | none => rfl
        | some b => simp [hvb] at e'
      refine ⟨n' :: ms, by simp [memberNames, hg, e, hms], fun k => ?_⟩
      rw [hex, List.mem_cons, hmem, hnone]; simp
    · refine ⟨n' :: b :: ms, by simp [memberNames, hg, e, hms, hn], fun k => ?_⟩
      rw [hex, List.mem_cons, List.mem_cons, hmem, hvb, Option.some.injEq, eq_comm (a := b)]

theorem names_eq (c : Coll) (h : Consistent c) : c.vars.map (·.2.name) = c.vars.map (·.1) :=
  List.map_congr_left fun kv hm => h.named kv.1 kv.2 hm

theorem gridExtract_eq (c : Coll) (h : Consistent c) (coords : List String) (hc : ∀ n ∈ coords, n ∈ c.vars.map (·.1))
    (hb : ∀ n v, n ∈ coords → (n, v) ∈ c.vars → BoundsThere c v) (cb : Bool) :
    ∃ c' r, gridExtract c coords cb = (c', .ok r) ∧ LeftOver c r (fun k => ¬GridMember c coords k) ∧ Consistent r ∧ InOrderOf c r ∧
      (cb = false → c' = c) ∧ (cb = true → LeftOver c c' (GridMember c coords) ∧ Consistent c' ∧ InOrderOf c c') := by
  obtain ⟨ms, hms, hmem⟩ := memberNames_spec c h coords hc hb
  have hsub : ∀ p : String → Bool, ((c.vars.map (·.2.name)).filter p).Nodup ∧ ∀ n, n ∈ (c.vars.map (·.2.name)).filter p → n ∈ c.vars.map (·.1) := by
    intro p
    rw [names_eq c h]
    exact ⟨h.varKeys.filter _, fun n hn => (List.mem_filter.1 hn).1⟩
  obtain ⟨r, er, lr, cr, orr⟩ := removeEach_false _ c h (hsub fun n => !ms.contains n).1 (hsub _).2
  obtain ⟨s, es, ls, cs, os⟩ := removeEach_false _ c h (hsub fun n => ms.contains n).1 (hsub _).2
  have lr' : LeftOver c r (fun k => ¬GridMember c coords k) := leftOver_congr lr fun k hk => by
    rw [names_eq c h, List.mem_filter, ← hmem]; simp only [hk, true_and]; simp
  have ls' : LeftOver c s (GridMember c coords) := leftOver_congr ls fun k hk => by
    rw [names_eq c h, List.mem_filter, ← hmem]; simp only [hk, true_and]; simp
  cases cb with
  | false => exact ⟨c, r, by simp only [gridExtract, hms, er]; rfl, lr', cr, orr, fun _ => rfl, fun e => by cases e⟩
  | true => exact ⟨s, r, by simp only [gridExtract, hms, er, es, if_true], lr', cr, orr, (fun e => by cases e), fun _ => ⟨ls', cs, os⟩⟩

end Ocgis.Proofs.Extract
