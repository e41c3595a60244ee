import Verif.Spec.RequestMeta
/-!
# Lemmas
-/
namespace Ocgis.Props
open Ocgis Ocgis.RequestMeta Ocgis.Spec

theorem change_keys (f : VMeta → VMeta) (k : String) (m : Meta) : (change f k m).map Prod.fst = m.map Prod.fst := by
  induction m with
  | nil => rfl
  | cons p m ih =>
    simp only [change, List.map_cons] at ih ⊢
    rw [ih]
    split <;> rfl

theorem change_lookup (f : VMeta → VMeta) (k j : String) (m : Meta) :
    (change f k m).lookup j = if j = k then (m.lookup k).map f else m.lookup j := by
  induction m with
  | nil => simp [change]
  | cons p m ih =>
    obtain ⟨a, x⟩ := p
    have ih' : (m.map fun kv => if kv.1 = k then (kv.1, f kv.2) else kv).lookup j = if j = k then (m.lookup k).map f else m.lookup j := ih
    simp only [change, List.map_cons]
    by_cases ha : a = k
    · subst ha
      simp only [if_true, List.lookup_cons]
      by_cases hj : j = a
      · subst hj; simp
      · have : (j == a) = false := by simpa using hj
        simp only [this, ih', hj, if_false]
    · simp only [ha, if_false, List.lookup_cons]
      by_cases hj : j = a
      · subst hj; simp [ha]
      · have h1 : (j == a) = false := by simpa using hj
        have h2 : (k == a) = false := by simpa using fun h => ha h.symm
        simp only [h1, h2, ih']

theorem changeAll_keys (f : String → VMeta → VMeta) (vs ns : List String) (m : Meta) :
    (changeAll f vs ns m).map Prod.fst = m.map Prod.fst := by
  induction vs generalizing ns m with
  | nil => cases ns <;> rfl
  | cons k vs ih =>
    cases ns with
    | nil => rfl
    | cons n ns => simp only [changeAll]; rw [ih, change_keys]

theorem changeAll_not_mem (f : String → VMeta → VMeta) (vs ns : List String) (m : Meta) (j : String) (hj : j ∉ vs) :
    (changeAll f vs ns m).lookup j = m.lookup j := by
  induction vs generalizing ns m with
  | nil => cases ns <;> rfl
  | cons k vs ih =>
    cases ns with
    | nil => rfl
    | cons n ns =>
      simp only [List.mem_cons, not_or] at hj
      simp only [changeAll]; rw [ih ns _ hj.2, change_lookup, if_neg hj.1]

theorem changeAll_mem (f : String → VMeta → VMeta) (vs ns : List String) (m : Meta) (hn : vs.Nodup) (k n : String)
    (hk : (k, n) ∈ vs.zip ns) : (changeAll f vs ns m).lookup k = (m.lookup k).map (f n) := by
  induction vs generalizing ns m with
  | nil => simp at hk
  | cons k' vs ih =>
    cases ns with
    | nil => simp at hk
    | cons n' ns =>
      simp only [List.nodup_cons] at hn
      simp only [List.zip_cons_cons, List.mem_cons, Prod.mk.injEq] at hk
      simp only [changeAll]
      rcases hk with ⟨rfl, rfl⟩ | hk
      · rw [changeAll_not_mem _ _ _ _ _ hn.1, change_lookup, if_pos rfl]
      · have : k ≠ k' := by
          rintro rfl
          exact hn.1 (List.of_mem_zip hk).1
        rw [ih ns _ hn.2 hk, change_lookup, if_neg this]

theorem changeAll_name (f : String → VMeta → VMeta) (hf : ∀ n x, (f n x).name = x.name) (vs ns : List String) (m : Meta) (j : String) :
    ((changeAll f vs ns m).lookup j).map VMeta.name = (m.lookup j).map VMeta.name := by
  induction vs generalizing ns m with
  | nil => cases ns <;> rfl
  | cons k vs ih =>
    cases ns with
    | nil => rfl
    | cons n ns =>
      simp only [changeAll]
      rw [ih ns, change_lookup]
      split
      · rename_i h; subst h; cases m.lookup j <;> simp [hf]
      · rfl

theorem changeAll_units (f : String → VMeta → VMeta) (hf : ∀ n x, (f n x).units = x.units) (vs ns : List String) (m : Meta) (j : String) :
    ((changeAll f vs ns m).lookup j).bind VMeta.units = (m.lookup j).bind VMeta.units := by
  induction vs generalizing ns m with
  | nil => cases ns <;> rfl
  | cons k vs ih =>
    cases ns with
    | nil => rfl
    | cons n ns =>
      simp only [changeAll]
      rw [ih ns, change_lookup]
      split
      · rename_i h; subst h; cases m.lookup j <;> simp [hf]
      · rfl

theorem changeAll_conform (f : String → VMeta → VMeta) (hf : ∀ n x, (f n x).conform = x.conform) (vs ns : List String) (m : Meta)
    (j : String) : ((changeAll f vs ns m).lookup j).bind VMeta.conform = (m.lookup j).bind VMeta.conform := by
  induction vs generalizing ns m with
  | nil => cases ns <;> rfl
  | cons k vs ih =>
    cases ns with
    | nil => rfl
    | cons n ns =>
      simp only [changeAll]
      rw [ih ns, change_lookup]
      split
      · rename_i h; subst h; cases m.lookup j <;> simp [hf]
      · rfl

theorem rmLookup_isSome {β : Type} (l : List (String × β)) (k : String) : (l.lookup k).isSome = true ↔ k ∈ l.map Prod.fst := by
  induction l with
  | nil => simp
  | cons p l ih =>
    obtain ⟨a, b⟩ := p
    by_cases h : k = a
    · subst h; simp
    · have : (k == a) = false := by simpa using h
      simp only [List.lookup_cons, this, ih, List.map_cons, List.mem_cons, h, false_or]

theorem variablesOf_iff (req : Req) (found : List String) (m : Meta) (hf : ∀ v ∈ found, v ∈ m.map Prod.fst) (vs : List String) :
    variablesOf req found m = .ok vs ↔ About req found m vs := by
  unfold variablesOf About
  cases hw : req.wanted with
  | none =>
    simp only [reduceCtorEq, true_and, false_or]
    split
    · rename_i h; subst h
      constructor
      · intro h; cases h
      · rintro ⟨h, -, h'⟩; exact absurd h'.symm h
    · rename_i h
      simp only [Except.ok.injEq]
      constructor
      · rintro rfl; exact ⟨h, hf, rfl⟩
      · exact fun h => h.2.2
  | some l =>
    simp only [Option.some.injEq, reduceCtorEq, false_and, or_false]
    split
    · rename_i h
      rw [List.all_eq_true] at h
      split
      · rename_i h'; subst h'
        constructor
        · intro h; cases h
        · rintro ⟨h, -, h'⟩; exact absurd h'.symm h
      · rename_i h'
        simp only [Except.ok.injEq]
        constructor
        · rintro rfl; exact ⟨h', fun v hv => (rmLookup_isSome m v).1 (h v hv), rfl⟩
        · exact fun h => h.2.2
    · rename_i h
      constructor
      · intro h; cases h
      · rintro ⟨-, h1, rfl⟩
        exact absurd (List.all_eq_true.2 fun v hv => (rmLookup_isSome m v).2 (h1 v hv)) h

theorem variablesOf_keys (req : Req) (found : List String) (m m' : Meta) (h : m'.map Prod.fst = m.map Prod.fst) :
    variablesOf req found m' = variablesOf req found m := by
  unfold variablesOf
  have : ∀ v, (m'.lookup v).isSome = (m.lookup v).isSome := by
    intro v
    rw [Bool.eq_iff_iff, rmLookup_isSome, rmLookup_isSome, h]
  simp only [this]

theorem loadMeta_keys {given : Bool} {req : Req} {found : List String} {m m' : Meta} (h : loadMeta given req found m = .ok m') :
    m'.map Prod.fst = m.map Prod.fst := by
  unfold loadMeta at h
  split at h
  · cases h; rfl
  · split at h
    · cases h; rfl
    · split at h
      · cases h
      · split at h
        · cases h
        · cases h; exact changeAll_keys _ _ _ _

theorem setUnits_ok {valid : String → Bool} {req : Req} {found : List String} {m m' : Meta} (h : setUnits valid req found m = .ok m') :
    (req.units = none ∧ m' = m) ∨ ∃ us vs, req.units = some us ∧ variablesOf req found m = .ok vs ∧ us.length = vs.length ∧
      us.all valid = true ∧ m' = changeAll (fun u x => { x with units := some u }) vs us m := by
  unfold setUnits at h
  split at h
  · cases h; exact Or.inl ⟨by assumption, rfl⟩
  · rename_i us hu
    split at h
    · cases h
    · rename_i vs hv
      split at h
      · cases h
      · rename_i hl
        split at h
        · rename_i ha; cases h; exact Or.inr ⟨us, vs, hu, hv, by simpa using hl, ha, rfl⟩
        · cases h

theorem setConform_ok {valid : String → Bool} {equiv : Option String → String → Bool} {req : Req} {found : List String} {m m' : Meta}
    (h : setConform valid equiv req found m = .ok m') :
    (req.conform = none ∧ m' = m) ∨ ∃ us vs, req.conform = some us ∧ variablesOf req found m = .ok vs ∧ us.length = vs.length ∧
      us.all valid = true ∧ equivalent equiv (unitsOf vs m) us = true ∧
      m' = changeAll (fun u x => { x with conform := some u }) vs us m := by
  unfold setConform at h
  split at h
  · cases h; exact Or.inl ⟨by assumption, rfl⟩
  · rename_i us hu
    split at h
    · cases h
    · rename_i vs hv
      split at h
      · cases h
      · rename_i hl
        split at h
        · rename_i ha
          split at h
          · rename_i he; cases h; exact Or.inr ⟨us, vs, hu, hv, by simpa using hl, ha, he, rfl⟩
          · cases h
        · cases h

theorem request_ok {valid : String → Bool} {equiv : Option String → String → Bool} {given : Bool} {req : Req} {found : List String}
    {m m' : Meta} (h : request valid equiv given req found m = .ok m') :
    ∃ m₁ m₂, loadMeta given req found m = .ok m₁ ∧ setUnits valid req found m₁ = .ok m₂ ∧ setConform valid equiv req found m₂ = .ok m' := by
  unfold request at h
  split at h
  · cases h
  · rename_i m₁ h₁
    split at h
    · cases h
    · rename_i m₂ h₂
      exact ⟨m₁, m₂, h₁, h₂, h⟩

theorem setUnits_keys {valid : String → Bool} {req : Req} {found : List String} {m m' : Meta} (h : setUnits valid req found m = .ok m') :
    m'.map Prod.fst = m.map Prod.fst := by
  rcases setUnits_ok h with ⟨-, rfl⟩ | ⟨us, vs, -, -, -, -, rfl⟩
  · rfl
  · exact changeAll_keys _ _ _ _

theorem setConform_keys {valid : String → Bool} {equiv : Option String → String → Bool} {req : Req} {found : List String} {m m' : Meta}
    (h : setConform valid equiv req found m = .ok m') : m'.map Prod.fst = m.map Prod.fst := by
  rcases setConform_ok h with ⟨-, rfl⟩ | ⟨us, vs, -, -, -, -, -, rfl⟩
  · rfl
  · exact changeAll_keys _ _ _ _

theorem setUnits_name {valid : String → Bool} {req : Req} {found : List String} {m m' : Meta} (h : setUnits valid req found m = .ok m')
    (j : String) : (m'.lookup j).map VMeta.name = (m.lookup j).map VMeta.name := by
  rcases setUnits_ok h with ⟨-, rfl⟩ | ⟨us, vs, -, -, -, -, rfl⟩
  · rfl
  · apply changeAll_name; intros; rfl

theorem setConform_name {valid : String → Bool} {equiv : Option String → String → Bool} {req : Req} {found : List String} {m m' : Meta}
    (h : setConform valid equiv req found m = .ok m') (j : String) : (m'.lookup j).map VMeta.name = (m.lookup j).map VMeta.name := by
  rcases setConform_ok h with ⟨-, rfl⟩ | ⟨us, vs, -, -, -, -, -, rfl⟩
  · rfl
  · apply changeAll_name; intros; rfl

theorem put_lookup (d : List (String × String)) (k v j : String) : (put d k v).lookup j = if j = k then some v else d.lookup j := by
  induction d with
  | nil =>
    unfold put
    by_cases h : j = k
    · subst h; simp
    · have : (j == k) = false := by simpa using h
      simp [List.lookup_cons, this, h]
  | cons p d ih =>
    obtain ⟨a, b⟩ := p
    unfold put
    split
    · rename_i h; subst h
      by_cases h : j = a
      · subst h; simp
      · have : (j == a) = false := by simpa using h
        simp [List.lookup_cons, this, h]
    · rename_i h
      by_cases hj : j = a
      · subst hj; simp [h]
      · have : (j == a) = false := by simpa using hj
        simp [List.lookup_cons, this, ih]

theorem fieldVars_lookup (m : Meta) (d : List (String × String)) (hk : (m.map Prod.fst).Nodup)
    (hi : ∀ k x k' x', (k, x) ∈ m → (k', x') ∈ m → x.name = x'.name → k = k') (n k : String) :
    (fieldVars m d).lookup n = some k ↔ (∃ x, (k, x) ∈ m ∧ x.name = n) ∨ ((∀ j x, (j, x) ∈ m → x.name ≠ n) ∧ d.lookup n = some k) := by
  induction m generalizing d with
  | nil => simp [fieldVars]
  | cons p m ih =>
    obtain ⟨a, y⟩ := p
    simp only [List.map_cons, List.nodup_cons] at hk
    simp only [fieldVars]
    rw [ih _ hk.2 (fun k x k' x' h h' => hi k x k' x' (List.mem_cons_of_mem _ h) (List.mem_cons_of_mem _ h')), put_lookup]
    have hy : ∀ j x, (j, x) ∈ m → x.name ≠ y.name := by
      intro j x hm he
      have := hi j x a y (List.mem_cons_of_mem _ hm) List.mem_cons_self he
      subst this
      exact hk.1 (List.mem_map_of_mem (f := Prod.fst) hm)
    constructor
    · rintro (⟨x, hm, hx⟩ | ⟨h, hd⟩)
      · exact Or.inl ⟨x, List.mem_cons_of_mem _ hm, hx⟩
      · split at hd
        · rename_i hn; subst hn; cases hd
          exact Or.inl ⟨y, List.mem_cons_self, rfl⟩
        · rename_i hn
          refine Or.inr ⟨?_, hd⟩
          intro j x hm
          rcases List.mem_cons.1 hm with h' | h'
          · cases h'; exact fun h => hn h.symm
          · exact h j x h'
    · rintro (⟨x, hm, hx⟩ | ⟨h, hd⟩)
      · rcases List.mem_cons.1 hm with h' | h'
        · cases h'
          refine Or.inr ⟨fun j x hm => by rw [← hx]; exact hy j x hm, by rw [if_pos hx.symm]⟩
        · exact Or.inl ⟨x, h', hx⟩
      · refine Or.inr ⟨fun j x hm => h j x (List.mem_cons_of_mem _ hm), ?_⟩
        rw [if_neg fun e => h a y List.mem_cons_self e.symm]
        exact hd

theorem appendTags_ok (ns tags : List String) (h : (tags ++ ns).Nodup) : appendTags ns tags = .ok (tags ++ ns) := by
  induction ns generalizing tags with
  | nil => simp [appendTags]
  | cons n ns ih =>
    unfold appendTags
    have : n ∉ tags := by
      intro hm
      rw [List.nodup_append] at h
      exact h.2.2 n hm n List.mem_cons_self rfl
    rw [if_neg this, ih (tags ++ [n]) (by simpa using h)]
    simp

theorem rmLookup_iff {β : Type} {l : List (String × β)} (hn : (l.map Prod.fst).Nodup) (k : String) (v : β) :
    l.lookup k = some v ↔ (k, v) ∈ l := by
  induction l with
  | nil => simp
  | cons p l ih =>
    obtain ⟨a, b⟩ := p
    simp only [List.map_cons, List.nodup_cons] at hn
    by_cases h : k = a
    · subst h
      simp only [List.lookup_cons, BEq.rfl, List.mem_cons, Prod.mk.injEq]
      constructor
      · intro e; cases e; simp
      · rintro (⟨-, rfl⟩ | h)
        · rfl
        · exact absurd (List.mem_map_of_mem (f := Prod.fst) h) hn.1
    · have : (k == a) = false := by simpa using h
      simp only [List.lookup_cons, this, List.mem_cons, Prod.mk.injEq, h, false_and, false_or]
      exact ih hn.2

/-- The variables of the field by the names in the metadata. -/
theorem fieldVars_names (m : Meta) (hk : (m.map Prod.fst).Nodup) (nm : String → String)
    (hnm : ∀ k, k ∈ m.map Prod.fst → (m.lookup k).map VMeta.name = some (nm k))
    (hi : ∀ k k', k ∈ m.map Prod.fst → k' ∈ m.map Prod.fst → nm k = nm k' → k = k') (n k : String) :
    (fieldVars m []).lookup n = some k ↔ k ∈ m.map Prod.fst ∧ nm k = n := by
  have hx : ∀ k x, (k, x) ∈ m → x.name = nm k := by
    intro k x hm
    have h1 := hnm k (List.mem_map_of_mem (f := Prod.fst) hm)
    rw [(rmLookup_iff hk k x).2 hm] at h1
    simpa using h1
  rw [fieldVars_lookup m [] hk]
  · simp only [List.lookup_nil, reduceCtorEq, and_false, or_false]
    constructor
    · rintro ⟨x, hm, rfl⟩
      exact ⟨List.mem_map_of_mem (f := Prod.fst) hm, (hx k x hm).symm⟩
    · rintro ⟨hm, rfl⟩
      obtain ⟨⟨k', x⟩, h1, h2⟩ := List.mem_map.1 hm
      simp only at h2
      subst h2
      exact ⟨x, h1, hx _ _ h1⟩
  · intro k x k' x' h h' he
    rw [hx _ _ h, hx _ _ h'] at he
    exact hi _ _ (List.mem_map_of_mem (f := Prod.fst) h) (List.mem_map_of_mem (f := Prod.fst) h') he

/-- The new name of a variable. -/
def nameAfter (vs ns : List String) (k : String) : String := ((vs.zip ns).lookup k).getD k

theorem zip_keys {vs ns : List String} (h : ns.length = vs.length) : (vs.zip ns).map Prod.fst = vs :=
  List.map_fst_zip (by omega)

theorem zip_vals {vs ns : List String} (h : ns.length = vs.length) : (vs.zip ns).map Prod.snd = ns :=
  List.map_snd_zip (by omega)

theorem nameAfter_iff {vs ns : List String} (hl : ns.length = vs.length) (hn : vs.Nodup) (k n : String) :
    nameAfter vs ns k = n ↔ Renamed vs ns k n := by
  unfold nameAfter Renamed
  have hk : ((vs.zip ns).map Prod.fst).Nodup := by rw [zip_keys hl]; exact hn
  cases h : (vs.zip ns).lookup k with
  | none =>
    have hv : k ∉ vs := by
      intro hv
      rw [← zip_keys hl, ← rmLookup_isSome, h] at hv
      cases hv
    simp only [Option.getD_none]
    constructor
    · rintro rfl; exact Or.inr ⟨hv, rfl⟩
    · rintro (h' | ⟨-, rfl⟩)
      · exact absurd (List.of_mem_zip h').1 hv
      · rfl
  | some n' =>
    have hm := (rmLookup_iff hk k n').1 h
    simp only [Option.getD_some]
    constructor
    · rintro rfl; exact Or.inl hm
    · rintro (h' | ⟨h', -⟩)
      · have := (rmLookup_iff hk k n).2 h'
        rw [h] at this
        cases this; rfl
      · exact absurd (List.of_mem_zip hm).1 h'

theorem mem_zip_of_snd {vs ns : List String} (hl : ns.length = vs.length) {n : String} (h : n ∈ ns) : ∃ k, (k, n) ∈ vs.zip ns := by
  rw [← zip_vals hl] at h
  obtain ⟨⟨k, n'⟩, hm, he⟩ := List.mem_map.1 h
  simp only at he
  subst he
  exact ⟨k, hm⟩

theorem zip_inj {vs ns : List String} (hn : ns.Nodup) {k k' n : String} (h : (k, n) ∈ vs.zip ns) (h' : (k', n) ∈ vs.zip ns) : k = k' := by
  induction vs generalizing ns with
  | nil => simp at h
  | cons v vs ih =>
    cases ns with
    | nil => simp at h
    | cons m ns =>
      simp only [List.nodup_cons] at hn
      simp only [List.zip_cons_cons, List.mem_cons, Prod.mk.injEq] at h h'
      rcases h with ⟨rfl, rfl⟩ | h <;> rcases h' with ⟨rfl, h2⟩ | h'
      · rfl
      · exact absurd (List.of_mem_zip h').2 hn.1
      · subst h2; exact absurd (List.of_mem_zip h).2 hn.1
      · exact ih hn.2 h h'

theorem setUnits_units {valid : String → Bool} {req : Req} {found : List String} {m m' : Meta} {vs : List String}
    (hv : variablesOf req found m = .ok vs) (hn : vs.Nodup) (h : setUnits valid req found m = .ok m') :
    (∀ us, req.units = some us → us.length = vs.length ∧
      ∀ k u, (k, u) ∈ vs.zip us → (m'.lookup k).bind VMeta.units = (m.lookup k).bind fun _ => some u) ∧
    (∀ k, req.units = none ∨ k ∉ vs → (m'.lookup k).bind VMeta.units = (m.lookup k).bind VMeta.units) ∧
    (∀ k, (m'.lookup k).bind VMeta.conform = (m.lookup k).bind VMeta.conform) := by
  rcases setUnits_ok h with ⟨h0, rfl⟩ | ⟨us, vs', hu, hv', hl, -, rfl⟩
  · rw [h0]; simp
  · rw [hv] at hv'; cases hv'
    rw [hu]
    refine ⟨?_, ?_, ?_⟩
    · rintro us' h'; cases h'
      refine ⟨hl, fun k u hz => ?_⟩
      rw [changeAll_mem _ vs us m hn k u hz]
      cases m.lookup k <;> rfl
    · rintro k (h | hk)
      · cases h
      · rw [changeAll_not_mem _ _ _ _ _ hk]
    · intro k
      apply changeAll_conform; intros; rfl

theorem setConform_conform {valid : String → Bool} {equiv : Option String → String → Bool} {req : Req} {found : List String}
    {m m' : Meta} {vs : List String} (hv : variablesOf req found m = .ok vs) (hn : vs.Nodup)
    (h : setConform valid equiv req found m = .ok m') :
    (∀ us, req.conform = some us → us.length = vs.length ∧
      ∀ k u, (k, u) ∈ vs.zip us → (m'.lookup k).bind VMeta.conform = (m.lookup k).bind fun _ => some u) ∧
    (∀ k, req.conform = none ∨ k ∉ vs → (m'.lookup k).bind VMeta.conform = (m.lookup k).bind VMeta.conform) ∧
    (∀ k, (m'.lookup k).bind VMeta.units = (m.lookup k).bind VMeta.units) := by
  rcases setConform_ok h with ⟨h0, rfl⟩ | ⟨us, vs', hu, hv', hl, -, -, rfl⟩
  · rw [h0]; simp
  · rw [hv] at hv'; cases hv'
    rw [hu]
    refine ⟨?_, ?_, ?_⟩
    · rintro us' h'; cases h'
      refine ⟨hl, fun k u hz => ?_⟩
      rw [changeAll_mem _ vs us m hn k u hz]
      cases m.lookup k <;> rfl
    · rintro k (h | hk)
      · cases h
      · rw [changeAll_not_mem _ _ _ _ _ hk]
    · intro k
      apply changeAll_units; intros; rfl

theorem loadMeta_units {given : Bool} {req : Req} {found : List String} {m m' : Meta} (h : loadMeta given req found m = .ok m')
    (k : String) : (m'.lookup k).bind VMeta.units = (m.lookup k).bind VMeta.units ∧
      (m'.lookup k).bind VMeta.conform = (m.lookup k).bind VMeta.conform := by
  unfold loadMeta at h
  split at h
  · cases h; exact ⟨rfl, rfl⟩
  · split at h
    · cases h; exact ⟨rfl, rfl⟩
    · split at h
      · cases h
      · split at h
        · cases h
        · cases h
          exact ⟨by apply changeAll_units; intros; rfl, by apply changeAll_conform; intros; rfl⟩

theorem bind_some_of_key {m : Meta} {k : String} (h : k ∈ m.map Prod.fst) (u : String) :
    ((m.lookup k).bind fun _ => some u) = some u := by
  have := (rmLookup_isSome m k).2 h
  cases hl : m.lookup k with
  | none => rw [hl] at this; cases this
  | some x => rfl

theorem equivalent_iff (equiv : Option String → String → Bool) (g : String → Option String) (vs cs : List String) :
    equivalent equiv (vs.map g) cs = true ↔ ∀ k d, (k, d) ∈ vs.zip cs → equiv (g k) d = true := by
  induction vs generalizing cs with
  | nil => cases cs <;> simp [equivalent]
  | cons v vs ih =>
    cases cs with
    | nil => simp [equivalent]
    | cons c cs =>
      simp only [List.map_cons, equivalent, Bool.and_eq_true, ih, List.zip_cons_cons, List.mem_cons, Prod.mk.injEq]
      constructor
      · rintro ⟨h1, h2⟩ k d (⟨rfl, rfl⟩ | h)
        · exact h1
        · exact h2 k d h
      · intro h
        exact ⟨h v c (Or.inl ⟨rfl, rfl⟩), fun k d hz => h k d (Or.inr hz)⟩

theorem isInside_iff (s u : List Char) : isInside s u = true ↔ Has s u := by
  induction u with
  | nil =>
    unfold isInside Has
    constructor
    · intro h
      rw [List.isEmpty_iff] at h
      exact ⟨[], [], by simp [h]⟩
    · rintro ⟨pre, post, h⟩
      have := congrArg List.length h
      simp only [List.length_nil, List.length_append] at this
      rw [List.isEmpty_iff]
      exact List.eq_nil_of_length_eq_zero (by omega)
  | cons c u ih =>
    unfold isInside
    rw [Bool.or_eq_true, ih, List.isPrefixOf_iff_prefix]
    unfold Has
    constructor
    · rintro (⟨t, h⟩ | ⟨pre, post, h⟩)
      · exact ⟨[], t, by simpa using h.symm⟩
      · exact ⟨c :: pre, post, by rw [h]; simp⟩
    · rintro ⟨pre, post, h⟩
      cases pre with
      | nil => exact Or.inl ⟨post, by simpa using h.symm⟩
      | cons a pre =>
        simp only [List.cons_append, List.cons.injEq] at h
        exact Or.inr ⟨pre, post, h.2⟩

theorem possible_single (u : List Char) : possible [u] =
    (if isInside ".csv".toList u then [Driver.csv] else []) ++
    (List.replicate (Driver.hits u .netcdf) .netcdf ++ (List.replicate (Driver.hits u .netcdf) .netcdfCf ++
    ((if isInside ".shp".toList u then [Driver.vector] else []) ++
    (List.replicate (Driver.hits u .netcdf) .ugrid ++ (List.replicate (Driver.hits u .netcdf) .esmf ++
      List.replicate (Driver.hits u .netcdf) .scrip))))) := by
  simp only [possible, registry, List.flatMap_cons, List.flatMap_nil, List.append_nil]
  congr 1
  · simp only [Driver.hits]; split <;> simp
  · congr 1
    congr 1
    congr 1
    simp only [Driver.hits]; split <;> simp

theorem locateIn_append (locate : String → List String) (a b : List String) (r : Option String) :
    locateIn locate (a ++ b) r = locateIn locate b (locateIn locate a r) := by
  induction a generalizing r with
  | nil => rfl
  | cons d a ih =>
    simp only [List.cons_append, locateIn]
    cases locate d <;> exact ih _

theorem locateIn_none (locate : String → List String) (ds : List String) (h : ∀ d ∈ ds, locate d = []) (r : Option String) :
    locateIn locate ds r = r := by
  induction ds generalizing r with
  | nil => rfl
  | cons d ds ih =>
    simp only [locateIn, h d List.mem_cons_self]
    exact ih (fun d hd => h d (List.mem_cons_of_mem _ hd)) r

end Ocgis.Props
