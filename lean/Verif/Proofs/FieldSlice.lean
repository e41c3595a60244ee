import Verif.Spec.FieldSlice
import Verif.Proofs.DictSlice
import Verif.Proofs.Scopes

namespace Ocgis.Props
open Ocgis Ocgis.DictSlice Ocgis.Scopes Ocgis.FieldSlice Ocgis.Spec

/-! ## Dictionaries -/

theorem find_nil {β : Type} (k : String) : find ([] : Assoc β) k = none := rfl

theorem find_cons {β : Type} (kv : String × β) (d : Assoc β) (k : String) : find (kv :: d) k = if kv.1 = k then some kv.2 else find d k := by
  unfold find
  rw [List.find?_cons]
  by_cases h : kv.1 = k
  · simp [h]
  · have : (kv.1 == k) = false := by simpa using h
    simp [this, h]

theorem find_isSome {β : Type} (d : Assoc β) (k : String) : (∃ x, find d k = some x) ↔ k ∈ d.map (·.1) := by
  induction d with
  | nil => simp [find_nil]
  | cons kv d ih =>
    rw [find_cons]
    by_cases h : kv.1 = k
    · simp [h]
    · rw [if_neg h, ih]
      simp [Ne.symm h]

theorem find_absent {β : Type} (d : Assoc β) (k : String) : find d k = none ↔ k ∉ d.map (·.1) := by
  rw [← find_isSome]
  cases find d k <;> simp

theorem find_put {β : Type} (d : Assoc β) (k k' : String) (x : β) :
    find (put d k x) k' = if k' = k then (find d k).map (fun _ => x) else find d k' := by
  induction d with
  | nil => simp [put, find_nil]
  | cons kv d ih =>
    have e : put (kv :: d) k x = (if kv.1 = k then (k, x) else kv) :: put d k x := rfl
    rw [e, find_cons, ih]
    by_cases h1 : kv.1 = k
    · by_cases h2 : k' = k
      · simp [h1, h2, find_cons]
      · simp [h1, h2, find_cons, Ne.symm h2]
    · by_cases h2 : k' = k
      · subst h2
        simp [h1, find_cons]
      · simp [h1, h2, find_cons]

theorem find_append {β : Type} (d e : Assoc β) (k : String) : find (d ++ e) k = (find d k).or (find e k) := by
  induction d with
  | nil => simp [find_nil]
  | cons kv d ih =>
    rw [List.cons_append, find_cons, find_cons, ih]
    by_cases h : kv.1 = k <;> simp [h]

theorem find_assign {β : Type} (d : Assoc β) (k k' : String) (x : β) : find (assign d k x) k' = if k' = k then some x else find d k' := by
  unfold assign
  by_cases h : d.any (fun kv => kv.1 == k) = true
  · rw [if_pos h, find_put]
    by_cases hk : k' = k
    · rw [if_pos hk, if_pos hk]
      have : k ∈ d.map (·.1) := by
        obtain ⟨kv, h1, h2⟩ := List.any_eq_true.1 h
        exact List.mem_map.2 ⟨kv, h1, by simpa using h2⟩
      obtain ⟨y, hy⟩ := (find_isSome d k).2 this
      rw [hy]
      rfl
    · rw [if_neg hk, if_neg hk]
  · rw [if_neg h, find_append, find_cons, find_nil]
    by_cases hk : k' = k
    · subst hk
      have : find d k' = none := (find_absent d k').2 fun hm => h (by
        obtain ⟨kv, h1, h2⟩ := List.mem_map.1 hm
        exact List.any_eq_true.2 ⟨kv, h1, by simpa using h2⟩)
      simp [this]
    · simp [hk, Ne.symm hk]

theorem assign_fresh {β : Type} (d : Assoc β) (k : String) (x : β) (h : k ∉ d.map (·.1)) : assign d k x = d ++ [(k, x)] := by
  unfold assign
  rw [if_neg]
  intro ha
  obtain ⟨kv, h1, h2⟩ := List.any_eq_true.1 ha
  exact h (List.mem_map.2 ⟨kv, h1, by simpa using h2⟩)

theorem find_filter {β : Type} (d : Assoc β) (p : String → Bool) (k : String) :
    find (d.filter fun kv => p kv.1) k = if p k then find d k else none := by
  induction d with
  | nil => simp [find_nil]
  | cons kv d ih =>
    rw [List.filter_cons, find_cons]
    by_cases h : kv.1 = k
    · subst h
      by_cases hp : p kv.1 = true
      · simp [hp, find_cons]
      · rw [if_neg hp, ih]
        simp [hp]
    · by_cases hp : p kv.1 = true
      · rw [if_pos hp, find_cons, if_neg h, ih, if_neg h]
      · rw [if_neg hp, ih, if_neg h]

theorem find_map {β γ : Type} (d : Assoc β) (g : β → γ) (k : String) : find (d.map fun kv => (kv.1, g kv.2)) k = (find d k).map g := by
  induction d with
  | nil => rfl
  | cons kv d ih =>
    rw [List.map_cons, find_cons, find_cons, ih]
    by_cases h : kv.1 = k <;> simp [h]

/-! ## The mapping -/

/-- A mapping that renames the dimensions one by one. -/
structure Renames (m : NameMapping) (names : List String) : Prop where
  keys : (m.map (·.1)).Nodup
  one : ∀ n k o k' o', n ∈ names → (k, o) ∈ m → (k', o') ∈ m → n ∈ o → n ∈ o' → k = k'
  different : ∀ n n' k o, n ∈ names → n' ∈ names → (k, o) ∈ m → n ∈ o → n' ∈ o → n = n'
  free : ∀ n k o, n ∈ names → k ∈ names → (k, o) ∈ m → n ∈ o → k = n

theorem newName_listed {m : NameMapping} {names : List String} (hr : Renames m names) {n k : String} {o : List String} (hn : n ∈ names)
    (hk : (k, o) ∈ m) (ho : n ∈ o) : newName m n = k := by
  unfold newName
  cases hf : m.find? (fun kv => kv.2.contains n) with
  | none =>
    have := List.find?_eq_none.1 hf _ hk
    simp [ho] at this
  | some kv =>
    have h1 := List.mem_of_find?_eq_some hf
    have h2 := List.find?_some hf
    exact hr.one n kv.1 kv.2 k o hn h1 hk (by simpa using h2) ho

theorem newName_unlisted (m : NameMapping) (n : String) (h : ∀ k o, (k, o) ∈ m → n ∉ o) : newName m n = n := by
  unfold newName
  rw [List.find?_eq_none.2]
  · rfl
  · intro kv hkv
    have := h kv.1 kv.2 hkv
    simpa using this

theorem newName_cases (m : NameMapping) (n : String) : (∃ o, (newName m n, o) ∈ m ∧ n ∈ o) ∨ (newName m n = n ∧ ∀ k o, (k, o) ∈ m → n ∉ o) := by
  by_cases h : ∃ k o, (k, o) ∈ m ∧ n ∈ o
  · left
    unfold newName
    cases hf : m.find? (fun kv => kv.2.contains n) with
    | none =>
      obtain ⟨k, o, h1, h2⟩ := h
      have := List.find?_eq_none.1 hf _ h1
      simp [h2] at this
    | some kv =>
      exact ⟨kv.2, List.mem_of_find?_eq_some hf, by simpa using List.find?_some hf⟩
  · right
    have h' : ∀ k o, (k, o) ∈ m → n ∉ o := fun k o h1 h2 => h ⟨k, o, h1, h2⟩
    exact ⟨newName_unlisted m n h', h'⟩

theorem newName_inj {m : NameMapping} {names : List String} (hr : Renames m names) {n n' : String} (hn : n ∈ names) (hn' : n' ∈ names)
    (h : newName m n = newName m n') : n = n' := by
  rcases newName_cases m n with ⟨o, h1, h2⟩ | ⟨h1, h2⟩
  · rcases newName_cases m n' with ⟨o', h3, h4⟩ | ⟨h3, h4⟩
    · have : o = o' := by
        rw [h] at h1
        have := List.pairwise_map.1 hr.keys
        by_cases he : ((newName m n', o) : String × List String) = (newName m n', o')
        · exact (Prod.mk.inj he).2
        · rcases List.pairwise_iff_getElem.1 hr.keys with _
          obtain ⟨i, hi, hie⟩ := List.getElem_of_mem h1
          obtain ⟨j, hj, hje⟩ := List.getElem_of_mem h3
          have hij : i = j := by
            refine (List.getElem_inj (h₀ := by simpa using hi) (h₁ := by simpa using hj) hr.keys).1 ?_
            simp [hie, hje]
          subst hij
          rw [hie] at hje
          exact (Prod.mk.inj hje).2
      subst this
      exact hr.different n n' _ o hn hn' h1 h2 h4
    · rw [h, h3] at h1
      exact (hr.free n n' o hn hn' h1 h2).symm
  · rcases newName_cases m n' with ⟨o', h3, h4⟩ | ⟨h3, h4⟩
    · rw [← h, h1] at h3
      exact hr.free n' n o' hn' hn h3 h4
    · rw [h1, h3] at h
      exact h

/-- A new name is never the name of another dimension. -/
theorem newName_free {m : NameMapping} {names : List String} (hr : Renames m names) {n n' : String} (hn : n ∈ names) (hn' : n' ∈ names)
    (h : newName m n' = n) : n' = n := by
  rcases newName_cases m n' with ⟨o, h1, h2⟩ | ⟨h1, h2⟩
  · rw [h] at h1
    exact (hr.free n' n o hn' hn h1 h2).symm
  · rw [← h1, h]

/-! ## Renaming the dimensions -/

theorem renameEntry_none (k : String) (olds : List String) (orig : List (String × Nat)) (hd : Heap × List (String × Nat))
    (h : ∀ n i, (n, i) ∈ orig → n ∉ olds) : renameEntry k olds orig hd = (hd.1, .ok hd.2) := by
  induction orig with
  | nil => rfl
  | cons p orig ih =>
    obtain ⟨n, i⟩ := p
    have hn := h n i (by simp)
    unfold renameEntry
    rw [if_neg (by simpa using hn)]
    exact ih fun n i hm => h n i (List.mem_cons_of_mem _ hm)

theorem renameEntry_one (k : String) (olds : List String) (orig : List (String × Nat)) (hd hd' : Heap × List (String × Nat)) (n : String) (i : Nat)
    (hk : (orig.map (·.1)).Nodup) (hm : (n, i) ∈ orig) (hn : n ∈ olds) (hu : ∀ n' i', (n', i') ∈ orig → n' ∈ olds → n' = n)
    (hd1 : renameDim k i hd = .ok hd') : renameEntry k olds orig hd = (hd'.1, .ok hd'.2) := by
  induction orig with
  | nil => cases hm
  | cons p orig ih =>
    obtain ⟨a, j⟩ := p
    simp only [List.map_cons, List.nodup_cons] at hk
    unfold renameEntry
    by_cases ha : a ∈ olds
    · have han := hu a j (by simp) ha
      subst han
      have hij : j = i := by
        rcases List.mem_cons.1 hm with h | h
        · exact (Prod.mk.inj h).2.symm
        · exact absurd (List.mem_map.2 ⟨_, h, rfl⟩) hk.1
      subst hij
      rw [if_pos (by simpa using ha), hd1]
      refine renameEntry_none k olds orig hd' fun n' i' hm' ho => ?_
      have := hu n' i' (List.mem_cons_of_mem _ hm') ho
      subst this
      exact hk.1 (List.mem_map.2 ⟨_, hm', rfl⟩)
    · rw [if_neg (by simpa using ha)]
      refine ih hk.2 ?_ fun n' i' hm' => hu n' i' (List.mem_cons_of_mem _ hm')
      rcases List.mem_cons.1 hm with h | h
      · rw [(Prod.mk.inj h).1] at hn
        exact absurd hn ha
      · exact h

/-- The dimensions and their names after some entries of the mapping. -/
structure RenamedSoFar (p : NameMapping) (orig : List (String × Nat)) (hd : Heap × List (String × Nat)) : Prop where
  keys : (hd.2.map (·.1)).Nodup
  there : ∀ n i, (n, i) ∈ orig → (newName p n, i) ∈ hd.2 ∧ hd.1 i = newName p n
  only : ∀ k i, (k, i) ∈ hd.2 → ∃ n, (n, i) ∈ orig ∧ k = newName p n

open Classical in
theorem newName_append (p : NameMapping) (k : String) (o : List String) (n : String) :
    newName (p ++ [(k, o)]) n = if ∃ k' o', (k', o') ∈ p ∧ n ∈ o' then newName p n else if n ∈ o then k else n := by
  unfold newName
  rw [List.find?_append]
  cases hf : p.find? (fun kv => kv.2.contains n) with
  | none =>
    have : ¬ ∃ k' o', (k', o') ∈ p ∧ n ∈ o' := by
      rintro ⟨k', o', h1, h2⟩
      have := List.find?_eq_none.1 hf _ h1
      simp [h2] at this
    rw [if_neg this]
    by_cases ho : n ∈ o
    · simp [ho]
    · simp [ho]
  | some kv =>
    have : ∃ k' o', (k', o') ∈ p ∧ n ∈ o' := ⟨kv.1, kv.2, List.mem_of_find?_eq_some hf, by simpa using List.find?_some hf⟩
    rw [if_pos this]
    rfl

theorem rename_step {m : NameMapping} {orig : List (String × Nat)} (hr : Renames m (orig.map (·.1))) (ho : (orig.map (·.1)).Nodup)
    (hi : (orig.map (·.2)).Nodup) (p : NameMapping) (k : String) (o : List String) (rest : NameMapping) (hm : m = p ++ (k, o) :: rest)
    (hd : Heap × List (String × Nat)) (hs : RenamedSoFar p orig hd) :
    ∃ hd', renameEntry k o orig hd = (hd'.1, .ok hd'.2) ∧ RenamedSoFar (p ++ [(k, o)]) orig hd' := by
  have hko : (k, o) ∈ m := by rw [hm]; simp
  have hpm : ∀ x ∈ p, x ∈ m := fun x hx => by rw [hm]; simp [hx]
  have hkp : ∀ k' o', (k', o') ∈ p → k' ≠ k := by
    intro k' o' h1 he
    have := hr.keys
    rw [hm, List.map_append, List.nodup_append] at this
    exact this.2.2 k' (List.mem_map.2 ⟨_, h1, rfl⟩) k (by simp) he
  by_cases hex : ∃ n i, (n, i) ∈ orig ∧ n ∈ o
  · obtain ⟨n, i, hn, hno⟩ := hex
    have hnn : n ∈ orig.map (·.1) := List.mem_map.2 ⟨_, hn, rfl⟩
    have hnp : ∀ k' o', (k', o') ∈ p → n ∉ o' := fun k' o' h1 h2 => hkp k' o' h1 (hr.one n k' o' k o hnn (hpm _ h1) hko h2 hno)
    have hnew : newName p n = n := newName_unlisted p n hnp
    have hu : ∀ n' i', (n', i') ∈ orig → n' ∈ o → n' = n := fun n' i' h1 h2 =>
      hr.different n' n k o (List.mem_map.2 ⟨_, h1, rfl⟩) hnn hko h2 hno
    obtain ⟨t1, t2⟩ := hs.there n i hn
    rw [hnew] at t1 t2
    have hstep : ∀ n', n' ∈ orig.map (·.1) → newName (p ++ [(k, o)]) n' = if n' = n then k else newName p n' := by
      intro n' hn'
      rw [newName_append]
      by_cases hx : n' = n
      · subst hx
        rw [if_neg (by rintro ⟨k', o', h1, h2⟩; exact hnp k' o' h1 h2), if_pos hno, if_pos rfl]
      · rw [if_neg hx]
        by_cases hy : ∃ k' o', (k', o') ∈ p ∧ n' ∈ o'
        · rw [if_pos hy]
        · rw [if_neg hy, if_neg, newName_unlisted p n' fun k' o' h1 h2 => hy ⟨k', o', h1, h2⟩]
          intro h2
          obtain ⟨⟨a, j⟩, h3, h4⟩ := List.mem_map.1 hn'
          simp only at h4
          subst h4
          exact hx (hu _ j h3 h2)
    have hobj : ∀ n' i', (n', i') ∈ orig → i' = i → n' = n := by
      intro n' i' h1 h2
      subst h2
      obtain ⟨a, ha, hae⟩ := List.getElem_of_mem h1
      obtain ⟨b, hb, hbe⟩ := List.getElem_of_mem hn
      have hab : a = b := by
        refine (List.getElem_inj (h₀ := by simpa using ha) (h₁ := by simpa using hb) hi).1 ?_
        simp [hae, hbe]
      subst hab
      rw [hae] at hbe
      exact (Prod.mk.inj hbe).1
    by_cases hkn : n = k
    · subst hkn
      refine ⟨(hd.1.put i n, putKey hd.2 n i), ?_, ?_⟩
      · refine renameEntry_one n o orig hd _ n i ho hn hno hu ?_
        unfold renameDim
        rw [t2, if_pos rfl]
      · have hput : putKey hd.2 n i = hd.2 := by
          unfold putKey
          rw [if_pos (List.any_eq_true.2 ⟨_, t1, by simp⟩)]
          conv => rhs; rw [← List.map_id hd.2]
          apply List.map_congr_left
          rintro ⟨a, j⟩ ha
          by_cases hx : a = n
          · subst hx
            simp only [if_true, id]
            obtain ⟨x, hx, hxe⟩ := List.getElem_of_mem ha
            obtain ⟨y, hy, hye⟩ := List.getElem_of_mem t1
            have hxy : x = y := by
              refine (List.getElem_inj (h₀ := by simpa using hx) (h₁ := by simpa using hy) hs.keys).1 ?_
              simp [hxe, hye]
            subst hxy
            rw [hxe] at hye
            exact hye.symm
          · simp [hx]
        rw [hput]
        refine ⟨hs.keys, fun n' i' h1 => ?_, fun k' i' h1 => ?_⟩
        · obtain ⟨s1, s2⟩ := hs.there n' i' h1
          rw [hstep n' (List.mem_map.2 ⟨_, h1, rfl⟩)]
          by_cases hx : n' = n
          · subst hx
            rw [if_pos rfl]
            rw [hnew] at s1 s2
            refine ⟨s1, ?_⟩
            unfold Heap.put
            show (if i' = i then _ else _) = _
            split
            · rfl
            · exact s2
          · rw [if_neg hx]
            refine ⟨s1, ?_⟩
            show (if i' = i then _ else _) = _
            rw [if_neg fun he => hx (hobj n' i' h1 he)]
            exact s2
        · obtain ⟨n', h2, h3⟩ := hs.only k' i' h1
          refine ⟨n', h2, ?_⟩
          rw [hstep n' (List.mem_map.2 ⟨_, h2, rfl⟩)]
          split
          · rename_i hx
            subst hx
            rw [h3, hnew]
          · exact h3
    · have hfresh : ∀ i', (k, i') ∉ hd.2 := by
        intro i' h1
        obtain ⟨n', h2, h3⟩ := hs.only k i' h1
        have hn' : n' ∈ orig.map (·.1) := List.mem_map.2 ⟨_, h2, rfl⟩
        rcases newName_cases p n' with ⟨o', h4, h5⟩ | ⟨h4, h5⟩
        · rw [← h3] at h4
          exact hkp k o' h4 rfl
        · rw [h4] at h3
          rw [← h3] at hn'
          exact hkn (hr.free n k o hnn hn' hko hno).symm
      have hput : putKey hd.2 k i = hd.2 ++ [(k, i)] := by
        unfold putKey
        rw [if_neg]
        intro h
        obtain ⟨⟨a, j⟩, h1, h2⟩ := List.any_eq_true.1 h
        have : a = k := by simpa using h2
        subst this
        exact hfresh j h1
      refine ⟨(hd.1.put i k, (putKey hd.2 k i).filter fun kv => kv.1 != n), ?_, ?_⟩
      · refine renameEntry_one k o orig hd _ n i ho hn hno hu ?_
        unfold renameDim
        simp only [t2]
        rw [if_neg hkn, if_pos]
        rw [hput]
        exact List.any_eq_true.2 ⟨(n, i), List.mem_append_left _ t1, by simp⟩
      · rw [hput]
        have hfil : (hd.2 ++ [(k, i)]).filter (fun kv => kv.1 != n) = hd.2.filter (fun kv => kv.1 != n) ++ [(k, i)] := by
          rw [List.filter_append]
          congr 1
          have : (k != n) = true := by simpa using Ne.symm hkn
          simp [this]
        rw [hfil]
        refine ⟨?_, fun n' i' h1 => ?_, fun k' i' h1 => ?_⟩
        · rw [List.map_append, List.nodup_append]
          refine ⟨hs.keys.sublist (List.filter_sublist.map _), by simp, ?_⟩
          intro a ha b hb he
          simp only [List.map_cons, List.map_nil, List.mem_singleton] at hb
          subst hb
          subst he
          obtain ⟨⟨x, j⟩, h2, h3⟩ := List.mem_map.1 ha
          simp only at h3
          subst h3
          exact hfresh j (List.mem_filter.1 h2).1
        · obtain ⟨s1, s2⟩ := hs.there n' i' h1
          rw [hstep n' (List.mem_map.2 ⟨_, h1, rfl⟩)]
          by_cases hx : n' = n
          · subst hx
            have hii : i' = i := by
              obtain ⟨a, ha, hae⟩ := List.getElem_of_mem h1
              obtain ⟨b, hb, hbe⟩ := List.getElem_of_mem hn
              have hab : a = b := by
                refine (List.getElem_inj (h₀ := by simpa using ha) (h₁ := by simpa using hb) ho).1 ?_
                simp [hae, hbe]
              subst hab
              rw [hae] at hbe
              exact (Prod.mk.inj hbe).2
            subst hii
            rw [if_pos rfl]
            exact ⟨by simp, by show (if i' = i' then _ else _) = _; rw [if_pos rfl]⟩
          · rw [if_neg hx]
            refine ⟨List.mem_append_left _ (List.mem_filter.2 ⟨s1, ?_⟩), ?_⟩
            · have : newName p n' ≠ n := by
                intro he
                rcases newName_cases p n' with ⟨o', h4, h5⟩ | ⟨h4, h5⟩
                · rw [he] at h4
                  exact hx (hr.free n' n o' (List.mem_map.2 ⟨_, h1, rfl⟩) hnn (hpm _ h4) h5).symm
                · rw [h4] at he
                  exact hx he
              simpa using this
            · show (if i' = i then _ else _) = _
              rw [if_neg fun he => hx (hobj n' i' h1 he)]
              exact s2
        · rcases List.mem_append.1 h1 with h1 | h1
          · obtain ⟨h2, h3⟩ := List.mem_filter.1 h1
            obtain ⟨n', h4, h5⟩ := hs.only k' i' h2
            refine ⟨n', h4, ?_⟩
            rw [hstep n' (List.mem_map.2 ⟨_, h4, rfl⟩)]
            split
            · rename_i hx
              subst hx
              rw [h5, hnew] at h3
              simp at h3
            · exact h5
          · simp only [List.mem_singleton, Prod.mk.injEq] at h1
            obtain ⟨rfl, rfl⟩ := h1
            refine ⟨n, hn, ?_⟩
            rw [hstep n hnn, if_pos rfl]
  · have hno : ∀ n i, (n, i) ∈ orig → n ∉ o := fun n i h1 h2 => hex ⟨n, i, h1, h2⟩
    have hsame : ∀ n i, (n, i) ∈ orig → newName (p ++ [(k, o)]) n = newName p n := by
      intro n i h1
      rw [newName_append]
      split
      · rfl
      · rename_i hy
        rw [if_neg (hno n i h1), newName_unlisted p n fun k' o' h2 h3 => hy ⟨k', o', h2, h3⟩]
    refine ⟨hd, renameEntry_none k o orig hd hno, hs.keys, fun n i h1 => ?_, fun k' i h1 => ?_⟩
    · rw [hsame n i h1]
      exact hs.there n i h1
    · obtain ⟨n, h2, h3⟩ := hs.only k' i h1
      exact ⟨n, h2, by rw [hsame n i h2]; exact h3⟩

theorem rename_all {m : NameMapping} {orig : List (String × Nat)} (hr : Renames m (orig.map (·.1))) (ho : (orig.map (·.1)).Nodup)
    (hi : (orig.map (·.2)).Nodup) : ∀ (rest p : NameMapping) (hd : Heap × List (String × Nat)), m = p ++ rest → RenamedSoFar p orig hd →
    ∃ hd', renameEntries orig rest hd = (hd'.1, .ok hd'.2) ∧ RenamedSoFar m orig hd' := by
  intro rest
  induction rest with
  | nil =>
    intro p hd hm hs
    rw [List.append_nil] at hm
    subst hm
    exact ⟨hd, rfl, hs⟩
  | cons e rest ih =>
    intro p hd hm hs
    obtain ⟨k, o⟩ := e
    obtain ⟨hd', h1, h2⟩ := rename_step hr ho hi p k o rest hm hd hs
    obtain ⟨hd'', h3, h4⟩ := ih (p ++ [(k, o)]) hd' (by simp [hm]) h2
    refine ⟨hd'', ?_, h4⟩
    unfold renameEntries
    rw [h1]
    exact h3

/-! ## Renaming the variables' dimensions -/

theorem listing_entries {m : NameMapping} {names : List String} (hr : Renames m names) (n : String) (hn : n ∈ names) :
    (m.filter fun kv => kv.2.contains n) = [] ∧ newName m n = n ∨ ∃ o, (m.filter fun kv => kv.2.contains n) = [(newName m n, o)] := by
  rcases newName_cases m n with ⟨o, h1, h2⟩ | ⟨h1, h2⟩
  · right
    have hmem : (newName m n, o) ∈ m.filter fun kv => kv.2.contains n := List.mem_filter.2 ⟨h1, by simpa using h2⟩
    have hkeys : ((m.filter fun kv => kv.2.contains n).map (·.1)).Nodup := hr.keys.sublist (List.filter_sublist.map _)
    have hall : ∀ kv ∈ m.filter (fun kv => kv.2.contains n), kv.1 = newName m n := by
      intro kv hkv
      obtain ⟨h3, h4⟩ := List.mem_filter.1 hkv
      exact hr.one n kv.1 kv.2 _ o hn h3 h1 (by simpa using h4) h2
    generalize hl : m.filter (fun kv => kv.2.contains n) = l at hmem hkeys hall ⊢
    match l, hmem, hkeys, hall with
    | [a], hmem, _, _ =>
      refine ⟨o, ?_⟩
      rw [List.mem_singleton] at hmem
      rw [hmem]
    | a :: b :: t, _, hkeys, hall =>
      exfalso
      simp only [List.map_cons, List.nodup_cons, List.mem_cons, not_or] at hkeys
      exact hkeys.1.1 (by rw [hall a (by simp), hall b (by simp)])
  · left
    refine ⟨?_, h1⟩
    rw [List.filter_eq_nil_iff]
    intro kv hkv
    have := h2 kv.1 kv.2 hkv
    simpa using this

theorem renameVarNames_spec {m : NameMapping} {names : List String} (hr : Renames m names) : ∀ (rest done : List String),
    (done ++ rest).Nodup → (∀ n ∈ done ++ rest, n ∈ names) →
    renameVarNames m rest (done.map (newName m) ++ rest) = .ok ((done ++ rest).map (newName m)) := by
  intro rest
  induction rest with
  | nil => intro done _ _; simp [renameVarNames]
  | cons n rest ih =>
    intro done hnd hsub
    have hn := hsub n (by simp)
    have hih := ih (done ++ [n]) (by simpa using hnd) (by simpa using hsub)
    simp only [List.append_assoc, List.map_append, List.map_cons, List.map_nil, List.cons_append, List.nil_append] at hih
    unfold renameVarNames
    rcases listing_entries hr n hn with ⟨h1, h2⟩ | ⟨o, h1⟩
    · rw [h1]
      simp only [List.foldlM_nil, pure_bind]
      rw [h2] at hih
      simpa [h2] using hih
    · rw [h1]
      have hnot : n ∉ done.map (newName m) := by
        intro hm
        obtain ⟨x, hx, hxe⟩ := List.mem_map.1 hm
        have := newName_free hr hn (hsub x (by simp [hx])) hxe
        subst this
        rw [List.nodup_append] at hnd
        exact hnd.2.2 x hx x (by simp) rfl
      have hrep : replaceFirst (done.map (newName m) ++ n :: rest) n (newName m n) = .ok (done.map (newName m) ++ newName m n :: rest) := by
        unfold replaceFirst
        rw [if_pos (by simp)]
        have hidx : (done.map (newName m) ++ n :: rest).idxOf n = (done.map (newName m)).length := by
          rw [List.idxOf_append, if_neg hnot]
          simp
        rw [hidx, List.set_append_right _ _ (Nat.le_refl _)]
        simp
      simp only [List.foldlM_cons, List.foldlM_nil, hrep]
      show renameVarNames m rest (done.map (newName m) ++ newName m n :: rest) = _
      rw [hih]
      simp

theorem renameVars_spec {m : NameMapping} {names : List String} (hr : Renames m names) (vs : List (String × List String))
    (hv : ∀ k ns, (k, ns) ∈ vs → ns.Nodup ∧ ∀ n ∈ ns, n ∈ names) :
    vs.mapM (renameVar m) = .ok (vs.map fun kn => (kn.1, kn.2.map (newName m))) := by
  induction vs with
  | nil => rfl
  | cons v vs ih =>
    obtain ⟨k, ns⟩ := v
    obtain ⟨h1, h2⟩ := hv k ns (by simp)
    have := renameVarNames_spec hr ns [] (by simpa using h1) (by simpa using h2)
    simp only [List.map_nil, List.nil_append] at this
    rw [List.mapM_cons, ih fun k ns hm => hv k ns (List.mem_cons_of_mem _ hm)]
    unfold renameVar
    simp only [this]
    rfl

/-! ## References back -/

theorem refsEntry_none (k : String) (olds : List String) (orig : List (String × Nat)) (hr : Heap × Assoc String)
    (h : ∀ n i, (n, i) ∈ orig → n ∉ olds) : refsEntry k olds orig hr = hr := by
  induction orig with
  | nil => rfl
  | cons p orig ih =>
    obtain ⟨n, i⟩ := p
    unfold refsEntry
    rw [if_neg (by simpa using h n i (by simp))]
    exact ih fun n i hm => h n i (List.mem_cons_of_mem _ hm)

theorem refsEntry_one (k : String) (olds : List String) (orig : List (String × Nat)) (hr : Heap × Assoc String) (n : String) (i : Nat)
    (hk : (orig.map (·.1)).Nodup) (hm : (n, i) ∈ orig) (hn : n ∈ olds) (hu : ∀ n' i', (n', i') ∈ orig → n' ∈ olds → n' = n) :
    refsEntry k olds orig hr = (hr.1.put i k, assign hr.2 (hr.1 i) k) := by
  induction orig with
  | nil => cases hm
  | cons p orig ih =>
    obtain ⟨a, j⟩ := p
    simp only [List.map_cons, List.nodup_cons] at hk
    unfold refsEntry
    by_cases ha : a ∈ olds
    · have han := hu a j (by simp) ha
      subst han
      have hij : j = i := by
        rcases List.mem_cons.1 hm with h | h
        · exact (Prod.mk.inj h).2.symm
        · exact absurd (List.mem_map.2 ⟨_, h, rfl⟩) hk.1
      subst hij
      rw [if_pos (by simpa using ha)]
      refine refsEntry_none k olds orig _ fun n' i' hm' ho => ?_
      have := hu n' i' (List.mem_cons_of_mem _ hm') ho
      subst this
      exact hk.1 (List.mem_map.2 ⟨_, hm', rfl⟩)
    · rw [if_neg (by simpa using ha)]
      refine ih hk.2 ?_ fun n' i' hm' => hu n' i' (List.mem_cons_of_mem _ hm')
      rcases List.mem_cons.1 hm with h | h
      · rw [(Prod.mk.inj h).1] at hn
        exact absurd hn ha
      · exact h

/-- The references after some entries: from every listed dimension to its new name. -/
structure RefsSoFar (p : NameMapping) (orig : List (String × Nat)) (hr : Heap × Assoc String) : Prop where
  heap : ∀ n i, (n, i) ∈ orig → hr.1 i = newName p n
  keys : (hr.2.map (·.1)).Nodup
  refs : ∀ n k, (n, k) ∈ hr.2 ↔ n ∈ orig.map (·.1) ∧ ∃ o, (k, o) ∈ p ∧ n ∈ o

theorem refs_all {m : NameMapping} {orig : List (String × Nat)} (hr : Renames m (orig.map (·.1))) (ho : (orig.map (·.1)).Nodup)
    (hi : (orig.map (·.2)).Nodup) : ∀ (rest p : NameMapping) (s : Heap × Assoc String), m = p ++ rest → RefsSoFar p orig s →
    RefsSoFar m orig (backrefs orig rest s) := by
  intro rest
  induction rest with
  | nil =>
    intro p s hm hs
    rw [List.append_nil] at hm
    subst hm
    exact hs
  | cons e rest ih =>
    intro p s hm hs
    obtain ⟨k, o⟩ := e
    unfold backrefs
    refine ih (p ++ [(k, o)]) _ (by simp [hm]) ?_
    have hko : (k, o) ∈ m := by rw [hm]; simp
    have hpm : ∀ x ∈ p, x ∈ m := fun x hx => by rw [hm]; simp [hx]
    have hkp : ∀ k' o', (k', o') ∈ p → k' ≠ k := by
      intro k' o' h1 he
      have := hr.keys
      rw [hm, List.map_append, List.nodup_append] at this
      exact this.2.2 k' (List.mem_map.2 ⟨_, h1, rfl⟩) k (by simp) he
    by_cases hex : ∃ n i, (n, i) ∈ orig ∧ n ∈ o
    · obtain ⟨n, i, hn, hno⟩ := hex
      have hnn : n ∈ orig.map (·.1) := List.mem_map.2 ⟨_, hn, rfl⟩
      have hnp : ∀ k' o', (k', o') ∈ p → n ∉ o' := fun k' o' h1 h2 => hkp k' o' h1 (hr.one n k' o' k o hnn (hpm _ h1) hko h2 hno)
      have hnew : newName p n = n := newName_unlisted p n hnp
      have hu : ∀ n' i', (n', i') ∈ orig → n' ∈ o → n' = n := fun n' i' h1 h2 =>
        hr.different n' n k o (List.mem_map.2 ⟨_, h1, rfl⟩) hnn hko h2 hno
      rw [refsEntry_one k o orig s n i ho hn hno hu, hs.heap n i hn, hnew]
      have hfresh : n ∉ s.2.map (·.1) := by
        intro h
        obtain ⟨⟨a, b⟩, h1, h2⟩ := List.mem_map.1 h
        simp only at h2
        subst h2
        obtain ⟨-, o', h3, h4⟩ := (hs.refs a b).1 h1
        exact hnp b o' h3 h4
      rw [assign_fresh _ _ _ hfresh]
      refine ⟨fun n' i' h1 => ?_, ?_, fun n' k' => ?_⟩
      · rw [newName_append]
        show (if i' = i then k else s.1 i') = _
        by_cases hx : i' = i
        · subst hx
          have hnn' : n' = n := by
            obtain ⟨a, ha, hae⟩ := List.getElem_of_mem h1
            obtain ⟨b, hb, hbe⟩ := List.getElem_of_mem hn
            have hab : a = b := by
              refine (List.getElem_inj (h₀ := by simpa using ha) (h₁ := by simpa using hb) hi).1 ?_
              simp [hae, hbe]
            subst hab
            rw [hae] at hbe
            exact (Prod.mk.inj hbe).1
          subst hnn'
          rw [if_pos rfl, if_neg (by rintro ⟨k', o', h1, h2⟩; exact hnp k' o' h1 h2), if_pos hno]
        · rw [if_neg hx, hs.heap n' i' h1]
          split
          · rfl
          · rename_i hy
            rw [newName_unlisted p n' fun k' o' h2 h3 => hy ⟨k', o', h2, h3⟩, if_neg]
            intro h2
            have := hu n' i' h1 h2
            subst this
            obtain ⟨a, ha, hae⟩ := List.getElem_of_mem h1
            obtain ⟨b, hb, hbe⟩ := List.getElem_of_mem hn
            have hab : a = b := by
              refine (List.getElem_inj (h₀ := by simpa using ha) (h₁ := by simpa using hb) ho).1 ?_
              simp [hae, hbe]
            subst hab
            rw [hae] at hbe
            exact hx (Prod.mk.inj hbe).2
      · rw [List.map_append, List.nodup_append]
        refine ⟨hs.keys, by simp, ?_⟩
        intro a ha b hb he
        simp only [List.map_cons, List.map_nil, List.mem_singleton] at hb
        subst hb
        subst he
        exact hfresh ha
      · rw [List.mem_append, hs.refs]
        simp only [List.mem_singleton, Prod.mk.injEq, List.mem_append]
        constructor
        · rintro (⟨h1, o', h2, h3⟩ | ⟨rfl, rfl⟩)
          · exact ⟨h1, o', .inl h2, h3⟩
          · exact ⟨hnn, o, .inr ⟨rfl, rfl⟩, hno⟩
        · rintro ⟨h1, o', h2 | ⟨rfl, rfl⟩, h3⟩
          · exact .inl ⟨h1, o', h2, h3⟩
          · obtain ⟨⟨a, j⟩, h4, h5⟩ := List.mem_map.1 h1
            simp only at h5
            subst h5
            exact .inr ⟨hu a j h4 h3, rfl⟩
    · have hno : ∀ n i, (n, i) ∈ orig → n ∉ o := fun n i h1 h2 => hex ⟨n, i, h1, h2⟩
      rw [refsEntry_none k o orig s hno]
      refine ⟨fun n i h1 => ?_, hs.keys, fun n k' => ?_⟩
      · rw [newName_append, hs.heap n i h1]
        split
        · rfl
        · rename_i hy
          rw [if_neg (hno n i h1), newName_unlisted p n fun k' o' h2 h3 => hy ⟨k', o', h2, h3⟩]
      · rw [hs.refs]
        simp only [List.mem_append, List.mem_singleton, Prod.mk.injEq]
        constructor
        · rintro ⟨h1, o', h2, h3⟩
          exact ⟨h1, o', .inl h2, h3⟩
        · rintro ⟨h1, o', h2 | ⟨rfl, rfl⟩, h3⟩
          · exact ⟨h1, o', h2, h3⟩
          · obtain ⟨⟨a, j⟩, h4, h5⟩ := List.mem_map.1 h1
            simp only at h5
            subst h5
            exact absurd h3 (hno a j h4)

end Ocgis.Props
