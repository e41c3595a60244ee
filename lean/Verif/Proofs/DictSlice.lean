import Verif.Spec.DictSlice
import Verif.Props.Indexing
/-!
# Lemmas
-/
namespace Ocgis.Props
open Ocgis.DictSlice Ocgis.Spec

theorem find_of_mem {α : Type} (d : Assoc α) (hnd : (d.map (·.1)).Nodup) {n : String} {s : α} (h : (n, s) ∈ d) : find d n = some s := by
  induction d with
  | nil => cases h
  | cons kv d ih =>
    simp only [List.map_cons, List.nodup_cons] at hnd
    unfold find
    rw [List.find?_cons]
    by_cases hk : kv.1 = n
    · rcases List.mem_cons.1 h with h | h
      · subst h; simp
      · exact absurd (List.mem_map.2 ⟨(n, s), h, rfl⟩) (by rw [← hk]; exact hnd.1)
    · have : (kv.1 == n) = false := by simpa using hk
      rw [this]
      rcases List.mem_cons.1 h with h | h
      · exact absurd (by rw [← h]) hk
      · exact ih hnd.2 h

theorem mem_of_find {α : Type} (d : Assoc α) {n : String} {s : α} (h : find d n = some s) : (n, s) ∈ d := by
  unfold find at h
  cases hf : d.find? (fun kv => kv.1 == n) with
  | none => rw [hf] at h; cases h
  | some kv =>
    rw [hf] at h
    simp only [Option.map_some, Option.some.injEq] at h
    have hk := List.find?_some hf
    simp only [beq_iff_eq] at hk
    have hm := List.mem_of_find?_eq_some hf
    rw [← hk, ← h]
    exact hm

theorem put_keys {α : Type} (d : Assoc α) (n : String) (x : α) : (put d n x).map (·.1) = d.map (·.1) := by
  unfold put
  rw [List.map_map]
  apply List.map_congr_left
  intro kv _
  simp only [Function.comp]
  split
  · rename_i h; exact h.symm
  · rfl

theorem mem_put {α : Type} (d : Assoc α) (n m : String) (x y : α) (h : (m, y) ∈ put d n x) :
    (m = n ∧ y = x) ∨ (m ≠ n ∧ (m, y) ∈ d) := by
  unfold put at h
  obtain ⟨kv, hkv, he⟩ := List.mem_map.1 h
  by_cases hk : kv.1 = n
  · simp only [hk, if_true, Prod.mk.injEq] at he
    exact .inl ⟨he.1.symm, he.2.symm⟩
  · simp only [hk, if_false] at he
    subst he
    exact .inr ⟨hk, hkv⟩

theorem sliceDims_spec (all : Assoc Dim) (hall : (all.map (·.1)).Nodup) (good : String → Dim → Prop) (rest : Assoc RawIndex) (hrest : (rest.map (·.1)).Nodup)
    (h : ∀ n s, (n, s) ∈ rest → ∃ D D', (n, D) ∈ all ∧ D.getitem s = .ok D' ∧ good n D') :
    ∀ acc : Assoc Dim, ∃ r, sliceDims all rest acc = .ok r ∧ r.map (·.1) = acc.map (·.1) ∧
      ∀ n D', (n, D') ∈ r → (n ∈ rest.map (·.1) ∧ good n D') ∨ (n ∉ rest.map (·.1) ∧ (n, D') ∈ acc) := by
  induction rest with
  | nil => intro acc; exact ⟨acc, rfl, rfl, by intro n D' h; exact .inr ⟨by simp, h⟩⟩
  | cons ns rest ih =>
    intro acc
    obtain ⟨n, s⟩ := ns
    simp only [List.map_cons, List.nodup_cons] at hrest
    obtain ⟨D, D', h1, h2, h3⟩ := h n s (by simp)
    obtain ⟨r, e1, e2, e3⟩ := ih hrest.2 (fun m t hm => h m t (List.mem_cons_of_mem _ hm)) (put acc n D')
    refine ⟨r, ?_, by rw [e2, put_keys], ?_⟩
    · rw [sliceDims, find_of_mem all hall h1]
      simp only [h2]
      exact e1
    · intro m E hm
      rcases e3 m E hm with ⟨a, b⟩ | ⟨a, b⟩
      · exact .inl ⟨by simp [a], b⟩
      · rcases mem_put acc n m D' E b with ⟨c1, c2⟩ | ⟨c1, c2⟩
        · subst c1 c2; exact .inl ⟨by simp, h3⟩
        · exact .inr ⟨by simp [c1]; simpa using a, c2⟩

theorem positions_eq (n : Nat) (f : Index) : positions n f = pickIndex f (List.range n) := by
  cases f <;> simp [positions, pickIndex]

theorem supported_format {α : Type} (xs : List α) (idx : RawIndex) (h : Supported xs.length idx) :
    ∃ f, formatSlice idx = .ok f ∧ pickIndex f xs = pick idx xs := by
  apply C14_formatted_slice_partial
  cases idx with
  | int i => exact ⟨by have := h.1; omega, by have := h.1; omega, h.2⟩
  | ints is =>
    rcases h.2 with hj | hr
    · exact .inl hj
    · exact .inr ⟨hr, h.1⟩
  | _ => trivial

theorem fancy_format (idx : RawIndex) (f : Index) (h : formatSlice idx = .ok f) : fancy f = true → UsesArray idx := by
  intro hf
  cases idx with
  | int i => injection h with h; subst h; cases hf
  | slice s => injection h with h; subst h; cases hf
  | none => injection h with h; subst h; cases hf
  | bools bs => trivial
  | ints is =>
    simp only [formatSlice, optimalSlice] at h
    split at h
    · rename_i hg
      exact (anyGap_iff is).1 (by simpa using hg)
    · cases h1 : listMin is with
      | error e => rw [h1] at h; cases h
      | ok a =>
        cases h2 : listMax is with
        | error e => rw [h1, h2] at h; cases h
        | ok b =>
          rw [h1, h2] at h
          injection h with h; subst h; cases hf

theorem filter_le_one {β : Type _} (l : List β) (p : β → Bool)
    (h : ∀ (i j : Nat) (a b : β), l[i]? = some a → l[j]? = some b → p a = true → p b = true → i = j) : (l.filter p).length ≤ 1 := by
  induction l with
  | nil => simp
  | cons a l ih =>
    rw [List.filter_cons]
    split
    · rename_i hp
      have : l.filter p = [] := by
        rw [List.filter_eq_nil_iff]
        intro b hb hpb
        obtain ⟨j, hj⟩ := List.mem_iff_getElem?.1 hb
        have := h 0 (j + 1) a b rfl (by simpa using hj) hp hpb
        omega
      simp [this]
    · apply ih
      intro i j x y hi hj hx hy
      have := h (i + 1) (j + 1) x y (by simpa using hi) (by simpa using hj) hx hy
      omega

theorem allPositions_map (kept : Kept) (fmt : String → Index) (names : List String) :
    ∀ shape : List Nat, names.length = shape.length →
      (∀ (i : Nat) n, names[i]? = some n → positions (shape.getD i 0) (fmt n) = .ok (kept n)) →
      allPositions (names.map fmt) shape = .ok (names.map kept) := by
  induction names with
  | nil => intro shape hl _; cases shape with
    | nil => rfl
    | cons => simp at hl
  | cons n names ih =>
    intro shape hl h
    cases shape with
    | nil => simp at hl
    | cons N shape =>
      simp only [List.map_cons, allPositions]
      have h0 := h 0 n rfl
      simp only [List.getD_cons_zero] at h0
      rw [h0, ih shape (by simpa using hl) (by
        intro i m hm
        have := h (i + 1) m (by simpa using hm)
        simpa using this)]
      rfl

theorem sliceVar_restricts {α : Type} (kept : Kept) (raw : String → RawIndex) (fmt : String → Index) (v : DVar α)
    (hl : v.names.length = v.shape.length)
    (hf : ∀ n ∈ v.names, formatSlice (raw n) = .ok (fmt n))
    (hp : ∀ (i : Nat) n, v.names[i]? = some n → positions (v.shape.getD i 0) (fmt n) = .ok (kept n))
    (h1 : ((v.names.map fmt).filter fancy).length ≤ 1) :
    ∃ v', sliceVar (v.names.map raw) v = .ok v' ∧ Restricts kept v v' := by
  have e1 : (v.names.map raw).mapM formatSlice = .ok (v.names.map fmt) := by
    rw [List.mapM_map]
    exact Ocgis.Mpi.mapM_ok v.names _ _ hf
  have e2 := allPositions_map kept fmt v.names v.shape hl hp
  have hthrough : ∀ idx, through (v.names.map kept) idx = original kept v.names idx := by
    intro idx
    unfold through original
    rw [List.zipWith_map_left]
  have hs : ∀ {β : Type} (elem : List Nat → β), sliceArr (v.names.map fmt) v.shape elem =
      .ok ⟨(v.names.map kept).map List.length, fun idx => elem (through (v.names.map kept) idx)⟩ := by
    intro β elem
    unfold sliceArr
    rw [e2]
    simp only [h1, if_true]
  unfold sliceVar
  rw [e1]
  simp only [hs]
  cases hm : v.mask with
  | none =>
    refine ⟨_, rfl, ⟨rfl, ?_, ?_, ?_, ?_⟩⟩
    · simp only [List.map_map]; rfl
    · intro idx _ _; simp only [hthrough]
    · simp [hm]
    · intro m m' h; simp [hm] at h
  | some m =>
    have hsm : sliceMask (v.names.map fmt) v.shape (some m) = .ok (some fun idx => m (through (v.names.map kept) idx)) := by
      simp only [sliceMask, hs]; rfl
    rw [hsm]
    refine ⟨_, rfl, ⟨rfl, ?_, ?_, ?_, ?_⟩⟩
    · simp only [List.map_map]; rfl
    · intro idx _ _; simp only [hthrough]
    · simp [hm]
    · intro m1 m' h h' idx _ _
      rw [hm] at h
      injection h with h; subst h
      simp only [Option.some.injEq] at h'
      subst h'
      simp only [hthrough]

theorem sliceVars_spec {α : Type} (d : Assoc RawIndex) (P : DVar α → DVar α → Prop) (vs : Assoc (DVar α))
    (h : ∀ k v, (k, v) ∈ vs → ∃ v', dictSliceVar d v = .ok v' ∧ P v v') :
    ∃ r, sliceVars d vs = .ok r ∧ r.map (·.1) = vs.map (·.1) ∧
      ∀ (i : Nat) k v v', vs[i]? = some (k, v) → r[i]? = some (k, v') → P v v' := by
  induction vs with
  | nil => exact ⟨[], rfl, rfl, by simp⟩
  | cons kv vs ih =>
    obtain ⟨k, v⟩ := kv
    obtain ⟨v', h1, h2⟩ := h k v (by simp)
    obtain ⟨r, e1, e2, e3⟩ := ih (fun k v hm => h k v (List.mem_cons_of_mem _ hm))
    refine ⟨(k, v') :: r, ?_, by simp [e2], ?_⟩
    · rw [sliceVars, h1]; simp only [e1]
    · intro i k1 w w' hi hi'
      cases i with
      | zero =>
        simp only [List.getElem?_cons_zero, Option.some.injEq, Prod.mk.injEq] at hi hi'
        rw [← hi.2, ← hi'.2]; exact h2
      | succ i => exact e3 i k1 w w' (by simpa using hi) (by simpa using hi')

theorem mapM_get {β γ : Type _} (f : β → Res γ) (l : List β) : ∀ r, l.mapM f = .ok r →
    r.length = l.length ∧ ∀ (k : Nat) a, l[k]? = some a → ∃ b, r[k]? = some b ∧ f a = .ok b := by
  induction l with
  | nil => intro r h; injection h with h; subst h; simp
  | cons a l ih =>
    intro r h
    rw [List.mapM_cons] at h
    cases hf : f a with
    | error e => rw [hf] at h; cases h
    | ok b =>
      rw [hf] at h
      cases hm : l.mapM f with
      | error e => simp only [bind, Except.bind, hm] at h; cases h
      | ok r' =>
        simp only [bind, Except.bind, hm] at h
        injection h with h
        subst h
        obtain ⟨h1, h2⟩ := ih r' hm
        refine ⟨by simp [h1], ?_⟩
        intro k x hx
        cases k with
        | zero => simp only [List.getElem?_cons_zero, Option.some.injEq] at hx; subst hx; exact ⟨b, rfl, hf⟩
        | succ k => simpa using h2 k x (by simpa using hx)

end Ocgis.Props
