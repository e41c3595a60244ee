import Verif.Spec.SpatialColl
/-!
# Lemmas
-/
namespace Ocgis.Props
open Ocgis Ocgis.SpatialColl Ocgis.Spec

theorem mem_firsts {α : Type} [DecidableEq α] (l : List α) (a : α) : a ∈ firsts l ↔ a ∈ l := by
  induction l with
  | nil => simp [firsts]
  | cons b l ih =>
    simp only [firsts, List.mem_cons, List.mem_filter, ih, decide_eq_true_eq]
    by_cases h : a = b <;> simp [h]

theorem idxOf_cons_other {α : Type} [DecidableEq α] (l : List α) (a b : α) (h : b ≠ a) :
    (b :: l).idxOf a = l.idxOf a + 1 := by
  have : (b == a) = false := by simpa using h
  simp [List.idxOf_cons, this]

theorem nodup_firsts {α : Type} [DecidableEq α] (l : List α) : (firsts l).Nodup := by
  induction l with
  | nil => exact .nil
  | cons b l ih =>
    simp only [firsts, List.nodup_cons, List.mem_filter, decide_eq_true_eq]
    exact ⟨by simp, ih.filter _⟩

theorem firsts_snoc {α : Type} [DecidableEq α] (l : List α) (a : α) :
    firsts (l ++ [a]) = if a ∈ l then firsts l else firsts l ++ [a] := by
  induction l with
  | nil => simp [firsts]
  | cons b l ih =>
    simp only [List.cons_append, firsts, ih, List.mem_cons]
    by_cases hb : a = b
    · subst hb
      simp only [true_or, if_true]
      split
      · rfl
      · simp
    · simp only [hb, false_or]
      split
      · rfl
      · simp [hb]

theorem firsts_nodup {α : Type} [DecidableEq α] (l : List α) (h : l.Nodup) : firsts l = l := by
  induction l with
  | nil => rfl
  | cons b l ih =>
    simp only [List.nodup_cons] at h
    simp only [firsts, ih h.2]
    congr 1
    rw [List.filter_eq_self]
    intro a ha
    simp only [decide_eq_true_eq]
    rintro rfl
    exact h.1 ha

theorem get_put {κ ν : Type} [DecidableEq κ] (d : List (κ × ν)) (k j : κ) (v : ν) :
    get? (put d k v) j = if j = k then some v else get? d j := by
  induction d with
  | nil =>
    by_cases h : j = k
    · subst h; simp [put, get?]
    · have : ¬ k = j := fun e => h e.symm
      simp [put, get?, h, this]
  | cons e d ih =>
    simp only [put]
    by_cases he : e.1 = k
    · rw [if_pos he]
      by_cases h : j = k
      · subst h; simp [get?]
      · have h1 : ¬ k = j := fun e => h e.symm
        have h2 : ¬ e.1 = j := fun e' => h (e'.symm.trans he)
        simp [get?, h, h1, h2]
    · rw [if_neg he]
      by_cases h : e.1 = j
      · have : j ≠ k := fun e' => he (h.trans e')
        simp [get?, h, this]
      · simp only [get?, List.find?_cons, decide_eq_true_eq, h, decide_false] at ih ⊢
        exact ih

theorem keys_put {κ ν : Type} [DecidableEq κ] (d : List (κ × ν)) (k : κ) (v : ν) :
    (put d k v).map Prod.fst = if k ∈ d.map Prod.fst then d.map Prod.fst else d.map Prod.fst ++ [k] := by
  induction d with
  | nil => simp [put]
  | cons e d ih =>
    simp only [put]
    split
    · next h => subst h; simp
    · next h =>
      have h' : k ≠ e.1 := fun e' => h e'.symm
      simp only [List.map_cons, ih, List.mem_cons, h', false_or]
      split <;> simp

theorem get_some_iff {κ ν : Type} [DecidableEq κ] (d : List (κ × ν)) (k : κ) : (get? d k).isSome ↔ k ∈ d.map Prod.fst := by
  simp only [get?, Option.isSome_map, List.find?_isSome, decide_eq_true_eq, List.mem_map]

theorem get_mem {κ ν : Type} [DecidableEq κ] (d : List (κ × ν)) (h : (d.map Prod.fst).Nodup) (k : κ) (v : ν) :
    get? d k = some v ↔ (k, v) ∈ d := by
  induction d with
  | nil => simp [get?]
  | cons e d ih =>
    obtain ⟨j, u⟩ := e
    simp only [List.map_cons, List.nodup_cons] at h
    by_cases hj : j = k
    · subst hj
      simp only [get?, List.find?_cons, decide_true, Option.map_some, Option.some.injEq, List.mem_cons, Prod.mk.injEq, true_and]
      constructor
      · rintro rfl; exact .inl rfl
      · rintro (rfl | h')
        · rfl
        · exact absurd (List.mem_map.2 ⟨_, h', rfl⟩) h.1
    · have := ih h.2
      simp only [get?, List.find?_cons, hj, decide_false, List.mem_cons, Prod.mk.injEq] at this ⊢
      rw [this]
      constructor
      · exact .inr
      · rintro (⟨rfl, _⟩ | h')
        · exact absurd rfl hj
        · exact h'

/-- What the collection holds after the additions `as`. -/
structure Filed (as : List Add) (st : Coll) : Prop where
  keys : st.map Prod.fst = firsts (as.map Add.key)
  names : ∀ k, ((get? st k).getD []).map Prod.fst = firsts ((as.filter fun a => a.key = k).map Add.name)
  fields : ∀ k n f, get? ((get? st k).getD []) n = some f → LastFiled as k n f

theorem container_get (st : Coll) (a : Add) (h : a.held = []) : container st a = (get? st a.key).getD [] := by
  rw [container]
  split
  · next cs hcs => rw [hcs]; rfl
  · next hcs => rw [hcs, h]; simp

theorem addField_cases (st : Coll) (a : Add) (h : a.held = []) :
    let cs := (get? st a.key).getD []
    (((get? cs a.name).isSome ∧ a.force = false) ∧ addField st a = (.error .valueError, put st a.key cs))
    ∨ ((¬ ((get? cs a.name).isSome ∧ a.force = false)) ∧ addField st a = (.ok (), put st a.key (put cs a.name a.field))) := by
  intro cs
  have hc : container st a = cs := container_get st a h
  rw [addField, hc, addChild]
  by_cases hf : (get? cs a.name).isSome ∧ a.force = false
  · exact .inl ⟨hf, by rw [if_pos hf]⟩
  · exact .inr ⟨hf, by rw [if_neg hf]⟩

theorem lastFiled_snoc_other (as : List Add) (a : Add) (k : Option Int) (n : String) (f : Nat) (h : LastFiled as k n f)
    (ho : a.key = k → a.name = n → a.force = false) : LastFiled (as ++ [a]) k n f := by
  obtain ⟨b, x, c, rfl, h1, h2, h3, h4, h5⟩ := h
  refine ⟨b, x, c ++ [a], by simp, h1, h2, h3, h4, ?_⟩
  intro y hy
  simp only [List.mem_append, List.mem_singleton] at hy
  rcases hy with hy | rfl
  · exact h5 y hy
  · exact ho

theorem filed_name {as : List Add} {st : Coll} (h : Filed as st) (k : Option Int) (n : String) :
    (get? ((get? st k).getD []) n).isSome ↔ ∃ b ∈ as, b.key = k ∧ b.name = n := by
  rw [get_some_iff, h.names, mem_firsts]
  simp only [List.mem_map, List.mem_filter, decide_eq_true_eq]
  constructor
  · rintro ⟨b, ⟨h1, h2⟩, h3⟩; exact ⟨b, h1, h2, h3⟩
  · rintro ⟨b, h1, h2, h3⟩; exact ⟨b, ⟨h1, h2⟩, h3⟩

theorem filed_step {as : List Add} {st : Coll} (h : Filed as st) (a : Add) (hh : a.held = []) :
    Filed (as ++ [a]) (addField st a).2
    ∧ ((addField st a).1 = .ok () ↔ Acceptable as a)
    ∧ (¬ Acceptable as a → (addField st a).1 = .error .valueError) := by
  have hput : ∀ v, (put st a.key v).map Prod.fst = firsts ((as ++ [a]).map Add.key) := by
    intro v
    have hmem : a.key ∈ List.map Prod.fst st ↔ a.key ∈ as.map Add.key := by rw [h.keys, mem_firsts]
    rw [List.map_append, List.map_cons, List.map_nil, firsts_snoc, keys_put, ← h.keys]
    by_cases hm : a.key ∈ as.map Add.key
    · rw [if_pos hm, if_pos (hmem.2 hm)]
    · rw [if_neg hm, if_neg fun h' => hm (hmem.1 h')]
  have hnames0 := h.names a.key
  have hacc : Acceptable as a ↔ ¬ ((get? ((get? st a.key).getD []) a.name).isSome ∧ a.force = false) := by
    rw [filed_name h, Acceptable]
    constructor
    · rintro (h1 | h1) ⟨⟨b, hb, h2⟩, h3⟩
      · rw [h1] at h3; cases h3
      · exact h1 b hb h2
    · intro h1
      by_cases hf : a.force = true
      · exact .inl hf
      · refine .inr fun b hb h2 => h1 ⟨⟨b, hb, h2⟩, by simpa using hf⟩
  rcases addField_cases st a hh with ⟨hr, e⟩ | ⟨hr, e⟩
  · rw [e]
    refine ⟨⟨hput _, ?_, ?_⟩, ?_, ?_⟩
    · intro k
      simp only [get_put]
      by_cases hk : k = a.key
      · subst hk
        rw [if_pos rfl, Option.getD_some, hnames0, List.filter_append]
        simp only [List.filter_cons, decide_true, if_true, List.filter_nil, List.map_append, List.map_cons, List.map_nil]
        rw [firsts_snoc, if_pos]
        have := (filed_name h a.key a.name).1 hr.1
        obtain ⟨b, hb, h1, h2⟩ := this
        exact List.mem_map.2 ⟨b, by simp [hb, h1], h2⟩
      · rw [if_neg hk, h.names, List.filter_append]
        have : ¬ a.key = k := fun e => hk e.symm
        simp [this]
    · intro k n f hg
      have : get? ((get? st k).getD []) n = some f := by
        rw [get_put] at hg
        by_cases hk : k = a.key
        · rw [if_pos hk] at hg; rw [hk]; exact hg
        · rw [if_neg hk] at hg; exact hg
      exact lastFiled_snoc_other _ _ _ _ _ (h.fields k n f this) fun _ _ => hr.2
    · simp only [reduceCtorEq, false_iff]
      rw [hacc]
      exact fun h' => h' hr
    · intro _; rfl
  · rw [e]
    refine ⟨⟨hput _, ?_, ?_⟩, ?_, ?_⟩
    · intro k
      simp only [get_put]
      by_cases hk : k = a.key
      · subst hk
        rw [if_pos rfl, Option.getD_some, keys_put, hnames0, List.filter_append]
        simp only [List.filter_cons, decide_true, if_true, List.filter_nil, List.map_append, List.map_cons, List.map_nil]
        rw [firsts_snoc]
        simp only [mem_firsts]
      · rw [if_neg hk, h.names, List.filter_append]
        have : ¬ a.key = k := fun e => hk e.symm
        simp [this]
    · intro k n f hg
      rw [get_put] at hg
      by_cases hk : k = a.key
      · rw [if_pos hk, Option.getD_some, get_put] at hg
        by_cases hn : n = a.name
        · rw [if_pos hn] at hg
          simp only [Option.some.injEq] at hg
          exact ⟨as, a, [], rfl, hk.symm, hn.symm, hg, hacc.2 hr, by simp⟩
        · rw [if_neg hn] at hg
          subst hk
          exact lastFiled_snoc_other _ _ _ _ _ (h.fields _ n f hg) fun _ e => absurd e.symm hn
      · rw [if_neg hk] at hg
        exact lastFiled_snoc_other _ _ _ _ _ (h.fields k n f hg) fun e => absurd e.symm hk
    · simp only [true_iff]; exact hacc.2 hr
    · intro h'; exact absurd (hacc.2 hr) h'

theorem filed_run (as : List Add) (h : ∀ a ∈ as, a.held = []) : Filed as (run as) := by
  have key : ∀ (post pre : List Add) (st : Coll), (∀ a ∈ post, a.held = []) → Filed pre st →
      Filed (pre ++ post) (post.foldl (fun st a => (addField st a).2) st) := by
    intro post
    induction post with
    | nil => intro pre st _ h; simpa using h
    | cons a post ih =>
      intro pre st hh hf
      have := ih (pre ++ [a]) _ (fun b hb => hh b (by simp [hb])) (filed_step hf a (hh a (by simp))).1
      simpa using this
  have := key as [] [] h ⟨rfl, by intro k; rfl, by intro k n f hg; simp [get?] at hg⟩
  exact this

theorem run_snoc (as : List Add) (a : Add) : run (as ++ [a]) = (addField (run as) a).2 := by
  simp [run, List.foldl_append]

end Ocgis.Props
