import Verif.Spec.NcCollect
import Verif.Proofs.MetaOverride
namespace Ocgis.Proofs.NcCollect
open Ocgis.NcCollect Spec Ocgis.MetaOverride Ocgis.Proofs.MetaOverride

theorem fold_wanted (pred : Option (String → Bool)) (m : List (String × String)) (names : List String) : ∀ d,
    names.foldl (fun d n => if pred.any (fun p => !p n) then d else assign d (nameInField m n) n) d =
      (wantedVars pred names).foldl (fun d n => assign d (nameInField m n) n) d := by
  cases pred with
  | none => intro d; simp [wantedVars]
  | some p =>
    induction names with
    | nil => intro d; rfl
    | cons n l ih =>
      intro d
      rw [List.foldl_cons, ih]
      simp only [wantedVars, List.filter_cons, Option.any_some]
      by_cases h : p n = true <;> simp [h]

theorem readVars_eq (pred : Option (String → Bool)) (m : List (String × String)) (names : List String) :
    readVars pred m names = (wantedVars pred names).foldl (fun d n => assign d (nameInField m n) n) [] := fold_wanted pred m names []

theorem assign_new {α} (d : List (String × α)) (k : String) (v : α) (h : k ∉ d.map (·.1)) : assign d k v = d ++ [(k, v)] := by
  induction d with
  | nil => rfl
  | cons x d ih =>
    obtain ⟨k', v'⟩ := x
    simp only [List.map_cons, List.mem_cons, not_or] at h
    rw [assign, if_neg (fun e => h.1 e.symm), ih h.2]
    rfl

theorem fold_new (f : String → String) (l : List String) : ∀ d : List (String × String), (d.map (·.1) ++ l.map f).Nodup →
    l.foldl (fun d n => assign d (f n) n) d = d ++ l.map fun n => (f n, n) := by
  induction l with
  | nil => intro d _; simp
  | cons n l ih =>
    intro d h
    have hn : f n ∉ d.map (·.1) := by
      intro hm
      have := (List.nodup_append.1 h).2.2 _ hm (f n) (by simp)
      exact this rfl
    rw [List.foldl_cons, assign_new _ _ _ hn, ih]
    · simp
    · simpa using h

theorem fold_lookup (f : String → String) (l : List String) (q : String) : ∀ d : List (String × String),
    (l.foldl (fun d n => assign d (f n) n) d).lookup q = ((l.filter fun n => f n = q).getLast?).or (d.lookup q) := by
  induction l with
  | nil => intro d; rfl
  | cons n l ih =>
    intro d
    rw [List.foldl_cons, ih, lookup_assign, List.filter_cons]
    by_cases h : q = f n
    · subst h
      simp only [if_true, decide_true]
      cases hl : (l.filter fun n' => decide (f n' = f n)) with
      | nil => rfl
      | cons a b => rw [List.getLast?_cons_cons, List.getLast?_eq_some_getLast (List.cons_ne_nil a b)]; rfl
    · have h' : ¬ f n = q := fun e => h e.symm
      simp [h, h']

theorem assign_keys {α} (d : List (String × α)) (k : String) (v : α) (h : (d.map (·.1)).Nodup) : ((assign d k v).map (·.1)).Nodup ∧
    ∀ p ∈ assign d k v, p = (k, v) ∨ p ∈ d := by
  induction d with
  | nil => simp [assign]
  | cons x d ih =>
    obtain ⟨k', v'⟩ := x
    rw [assign]
    split
    · next e =>
      subst e
      refine ⟨h, fun p hp => ?_⟩
      rcases List.mem_cons.1 hp with rfl | hp
      · exact Or.inl rfl
      · exact Or.inr (by simp [hp])
    · next e =>
      simp only [List.map_cons, List.nodup_cons] at h ⊢
      obtain ⟨i1, i2⟩ := ih h.2
      refine ⟨⟨?_, i1⟩, fun p hp => ?_⟩
      · intro hm
        obtain ⟨p, hp, rfl⟩ := List.mem_map.1 hm
        rcases i2 p hp with rfl | hp
        · exact e rfl
        · exact h.1 (List.mem_map.2 ⟨p, hp, rfl⟩)
      · rcases List.mem_cons.1 hp with rfl | hp
        · exact Or.inr (by simp)
        · rcases i2 p hp with h | h
          · exact Or.inl h
          · exact Or.inr (by simp [h])

theorem fold_keys (f : String → String) (l : List String) : ∀ d : List (String × String), (d.map (·.1)).Nodup →
    ((l.foldl (fun d n => assign d (f n) n) d).map (·.1)).Nodup := by
  induction l with
  | nil => intro d h; exact h
  | cons n l ih =>
    intro d h
    exact ih _ (assign_keys d _ _ h).1

theorem lookup_of_mem {α} (l : List (String × α)) (hl : (l.map (·.1)).Nodup) (k : String) (a : α) (h : (k, a) ∈ l) : l.lookup k = some a := by
  induction l with
  | nil => cases h
  | cons x l ih =>
    obtain ⟨k', a'⟩ := x
    simp only [List.map_cons, List.nodup_cons, List.mem_map, not_exists, not_and] at hl
    rw [List.lookup_cons]
    rcases List.mem_cons.1 h with e | e
    · cases e
      simp
    · have : (k == k') = false := by
        have := hl.1 _ e
        simpa using this
      rw [this]
      exact ih hl.2 e

theorem mem_of_lookup {α} (l : List (String × α)) (k : String) (a : α) (h : l.lookup k = some a) : (k, a) ∈ l := by
  induction l with
  | nil => cases h
  | cons x l ih =>
    obtain ⟨k', a'⟩ := x
    rw [List.lookup_cons] at h
    by_cases e : k = k'
    · subst e
      simp at h
      simp [h]
    · have e' : (k == k') = false := by simpa using e
      rw [e'] at h
      exact List.mem_cons_of_mem _ (ih h)

theorem groups_lookup (pred : Option (String → Bool)) (m : List (String × String)) (l : List (String × FileGroup)) (n : String) :
    (readGroups pred m l).lookup n = (l.lookup n).map (readGroup pred m) := by
  induction l with
  | nil => simp [readGroups]
  | cons x l ih =>
    obtain ⟨k, g⟩ := x
    rw [readGroups, List.lookup_cons, List.lookup_cons, ih]
    cases n == k <;> rfl

theorem at_path (pred : Option (String → Bool)) (m : List (String × String)) (path : List String) : ∀ g,
    varsInField (readGroup pred m g) path = (varsInFile g path).map (readVars pred m) := by
  induction path with
  | nil =>
    intro g
    obtain ⟨v, gs⟩ := g
    rw [readGroup]
    rfl
  | cons n path ih =>
    intro g
    obtain ⟨v, gs⟩ := g
    rw [readGroup, varsInField, varsInFile, groups_lookup]
    cases gs.lookup n with
    | none => rfl
    | some g => exact ih g

theorem zip_keys {α β} (l : List α) : ∀ r : List β, (l.zip r).map (·.1) = l.take r.length := by
  induction l with
  | nil => intro r; simp
  | cons a l ih =>
    intro r
    cases r with
    | nil => rfl
    | cons b r => simp [ih]

/-- The map, entry by entry. -/
theorem map_get (variables renames : List String) (hn : variables.Nodup) (n : String) :
    nameInField (renameMap variables renames) n = ((variables.zip renames).lookup n).getD n := by
  have hz : KeysOnce (variables.zip renames) := by
    rw [KeysOnce, zip_keys]
    exact hn.sublist (List.take_sublist _ _)
  rw [nameInField, renameMap]
  have := lookup_update _ hz [] n
  rw [updateBy] at this
  rw [this]
  cases (variables.zip renames).lookup n <;> rfl

end Ocgis.Proofs.NcCollect
