import Verif.Spec.Scopes
/-!
# Lemmas
-/
namespace Ocgis.Props
open Ocgis.Scopes Ocgis.Spec

theorem loopChildren_append (ts : List Tree) (t : Tree) : ∀ r, loopChildren (ts ++ [t]) r = reportedEmpty t := by
  induction ts with
  | nil => intro r; simp [loopChildren]
  | cons x xs ih => intro r; simp only [List.cons_append, loopChildren]; exact ih _

theorem restoreAll_other (l : List (Nat × String)) : ∀ (h : Heap) (d : Nat), d ∉ l.map (·.1) → restoreAll h l d = h d := by
  induction l with
  | nil => intro h d _; rfl
  | cons x l ih =>
    intro h d hd
    obtain ⟨a, o⟩ := x
    simp only [List.map_cons, List.mem_cons, not_or] at hd
    rw [restoreAll, ih _ d hd.2]
    simp [Heap.put, hd.1]

theorem restoreAll_mem (l : List (Nat × String)) (f : Heap) (hl : ∀ x ∈ l, f x.1 = x.2) : ∀ (h : Heap) (d : Nat), d ∈ l.map (·.1) →
    restoreAll h l d = f d := by
  induction l with
  | nil => intro h d hd; cases hd
  | cons x l ih =>
    intro h d hd
    obtain ⟨a, o⟩ := x
    rw [restoreAll]
    by_cases hm : d ∈ l.map (·.1)
    · exact ih (fun x hx => hl x (List.mem_cons_of_mem _ hx)) _ d hm
    · rw [restoreAll_other l _ d hm]
      have hda : d = a := by
        rcases List.mem_cons.1 hd with h | h
        · exact h
        · exact absurd h hm
      subst hda
      have := hl (d, o) (by simp)
      simp [Heap.put, this]

theorem zip_map_self (dims : List Nat) (h : Heap) : dims.zip (dims.map h) = dims.map fun d => (d, h d) := by
  induction dims with
  | nil => rfl
  | cons d ds ih => simp [ih]

theorem renameAll_other (m : NameMapping) (ds : List Nat) : ∀ (h : Heap) (d : Nat), d ∉ ds → renameAll m h ds d = h d := by
  induction ds with
  | nil => intro h d _; rfl
  | cons a l ih =>
    intro h d hd
    simp only [List.mem_cons, not_or] at hd
    rw [renameAll, ih _ d hd.2]
    simp [Heap.put, hd.1]

theorem restoreNames_eq (l : List (String × Nat)) : ∀ h, restoreNames h l = restoreAll h (l.map fun kd => (kd.2, kd.1)) := by
  induction l with
  | nil => intro h; rfl
  | cons x l ih =>
    intro h
    obtain ⟨k, d⟩ := x
    simp only [restoreNames, List.map_cons, restoreAll]
    exact ih _

theorem restoreVars_ok (orig : List (String × List String)) : ∀ (vs : List (String × List String)),
    (∀ n d, (n, d) ∈ vs → ∃ d', (n, d') ∈ orig) →
    (restoreVars orig vs).2 = none ∧ (restoreVars orig vs).1.map (·.1) = vs.map (·.1) ∧
    ∀ n d, (n, d) ∈ (restoreVars orig vs).1 → (n, d) ∈ orig := by
  intro vs
  induction vs with
  | nil => intro _; exact ⟨rfl, rfl, by intro n d h; cases h⟩
  | cons x vs ih =>
    intro h
    obtain ⟨n, d⟩ := x
    obtain ⟨d', hd'⟩ := h n d (by simp)
    obtain ⟨e1, e2, e3⟩ := ih (fun n d hnd => h n d (List.mem_cons_of_mem _ hnd))
    rw [restoreVars]
    cases hf : orig.find? fun kv => kv.1 == n with
    | none =>
      rw [List.find?_eq_none] at hf
      exact absurd (hf _ hd') (by simp)
    | some kv =>
      have hkv : kv.1 = n := by simpa using List.find?_some hf
      have hm := List.mem_of_find?_eq_some hf
      refine ⟨e1, by simpa using e2, ?_⟩
      intro n' d'' hmem
      rcases List.mem_cons.1 hmem with heq | hmem
      · injection heq with h1 h2
        subst h1 h2
        rw [← hkv]; exact hm
      · exact e3 _ _ hmem

/-- Whatever state `c'` the scope is left in, so long as its variables have names that were there before. -/
theorem restore_spec (c c' : VC) (e : Option PyErr) (hw : WellNamed c) (hv : ∀ n d, (n, d) ∈ c'.vars → ∃ d', (n, d') ∈ c.vars) :
    (restoreVC c c' e).2 = e ∧ (restoreVC c c' e).1.dims = c.dims ∧
    (∀ k d, (k, d) ∈ c.dims → (restoreVC c c' e).1.heap d = c.heap d) ∧
    (restoreVC c c' e).1.vars.map (·.1) = c'.vars.map (·.1) ∧
    (∀ n d, (n, d) ∈ (restoreVC c c' e).1.vars → (n, d) ∈ c.vars) := by
  obtain ⟨e1, e2, e3⟩ := restoreVars_ok c.vars c'.vars hv
  refine ⟨?_, rfl, ?_, e2, e3⟩
  · simp only [restoreVC]
    rw [e1]; rfl
  · intro k d hkd
    simp only [restoreVC]
    rw [restoreNames_eq]
    apply restoreAll_mem
    · intro x hx
      obtain ⟨⟨k', d'⟩, hm, rfl⟩ := List.mem_map.1 hx
      exact hw.names k' d' hm
    · simp only [List.map_map, List.mem_map]
      exact ⟨(k, d), hkd, rfl⟩

end Ocgis.Props
