import Verif.Spec.RequestSize
/-!
# Lemmas on the size of requests
-/
namespace Ocgis.Proofs.RequestSize
open Spec Ocgis.RequestSize

theorem foldl_mul (l : List Nat) : ∀ a, l.foldl (· * ·) a = a * elementsOf l := by
  induction l with
  | nil => intro a; simp [elementsOf]
  | cons n l ih => intro a; rw [List.foldl_cons, ih, elementsOf, Nat.mul_assoc]

theorem kb_eq (v : Var) (h : v.shape ≠ []) : kb v = (bytesOf v (v.itemsize.getD 8) : Rat) / 1024 := by
  unfold kb size bytesOf
  rw [if_neg (by simpa using h), foldl_mul, Nat.one_mul]

theorem setKey_new {β : Type} (k : String) (b : β) (l : List (String × β)) (h : k ∉ l.map (·.1)) : setKey k b l = l ++ [(k, b)] := by
  induction l with
  | nil => rfl
  | cons e l ih =>
    obtain ⟨k', b'⟩ := e
    simp only [List.map_cons, List.mem_cons, not_or] at h
    rw [setKey, if_neg (fun e => h.1 e.symm), ih h.2]
    rfl

theorem setKey_find {β : Type} (k : String) (b : β) (l : List (String × β)) (q : String) :
    (setKey k b l).find? (fun e => e.1 == q) = if k = q then some (k, b) else l.find? (fun e => e.1 == q) := by
  induction l with
  | nil =>
    by_cases h : k = q
    · simp [setKey, h]
    · simp [setKey, h]
  | cons e l ih =>
    obtain ⟨k', b'⟩ := e
    rw [setKey]
    by_cases hk : k' = k
    · rw [if_pos hk]
      by_cases h : k = q
      · simp [h]
      · simp [h, hk]
    · rw [if_neg hk, List.find?_cons, List.find?_cons, ih]
      by_cases h : k = q
      · subst h
        have hb : (k' == k) = false := by simpa using hk
        simp only [hb, if_true]
      · simp only [h, if_false]

/-- Setting different new keys one after the other appends them. -/
theorem foldl_setKey {α β : Type} (key : α → String) (val : α → β) (l : List α) :
    ∀ acc : List (String × β), (l.map key).Nodup → (∀ a ∈ l, key a ∉ acc.map (·.1)) →
      l.foldl (fun c a => setKey (key a) (val a) c) acc = acc ++ l.map fun a => (key a, val a) := by
  induction l with
  | nil => intro acc _ _; simp
  | cons a l ih =>
    intro acc hn hd
    simp only [List.map_cons, List.nodup_cons] at hn
    rw [List.foldl_cons, setKey_new _ _ _ (hd a (List.mem_cons_self ..)), ih]
    · simp
    · exact hn.2
    · intro b hb
      simp only [List.map_append, List.mem_append, List.map_cons, List.map_nil, List.mem_singleton, not_or]
      refine ⟨hd b (List.mem_cons_of_mem _ hb), ?_⟩
      intro he
      exact hn.1 (he ▸ List.mem_map.2 ⟨b, hb, rfl⟩)

theorem entries_eq (f : Field) (h : (f.vars.map (·.name)).Nodup) : entries f = f.vars.map fun v => (v.name, kb v) := by
  unfold entries
  rw [foldl_setKey (fun v : Var => v.name) kb f.vars [] h (by simp)]
  simp

theorem entries_plain (f : Field) (h : PlainFields f) : entries f = sizesOf f := by
  rw [entries_eq f h.2.1]
  unfold sizesOf
  apply List.map_congr_left
  intro v hv
  rw [kb_eq v (h.2.2 v hv)]

theorem setKey_twice {β : Type} (k : String) (b : β) (l : List (String × β)) : setKey k b (setKey k b l) = setKey k b l := by
  induction l with
  | nil => simp [setKey]
  | cons e l ih =>
    obtain ⟨k', b'⟩ := e
    rw [setKey]
    by_cases h : k' = k
    · rw [if_pos h, setKey, if_pos rfl]
    · rw [if_neg h, setKey, if_neg h, ih]

theorem foldl_same {α β : Type} (k : String) (b : β) (l : List α) (h : l ≠ []) (acc : List (String × β)) :
    l.foldl (fun c _ => setKey k b c) acc = setKey k b acc := by
  induction l generalizing acc with
  | nil => exact absurd rfl h
  | cons a l ih =>
    rw [List.foldl_cons]
    by_cases hl : l = []
    · subst hl; rfl
    · rw [ih hl, setKey_twice]

theorem melted_foldl (coll : List Field) (h : ∀ f ∈ coll, f.vars ≠ []) : ∀ acc,
    (melted coll).foldl (fun ret f => setKey f.name (entries f) ret) acc = coll.foldl (fun ret f => setKey f.name (entries f) ret) acc := by
  induction coll with
  | nil => intro acc; rfl
  | cons f coll ih =>
    intro acc
    unfold melted at ih ⊢
    rw [List.flatMap_cons, List.foldl_append, List.foldl_map, foldl_same _ _ _ (h f (List.mem_cons_self ..)),
      ih (fun g hg => h g (List.mem_cons_of_mem _ hg)), List.foldl_cons]

/-- The fields that are set, with all variables there. -/
theorem fields_flat (colls : List (List Field)) (h : ∀ f ∈ colls.flatten, f.vars ≠ []) : ∀ acc,
    colls.foldl (fun ret coll => (melted coll).foldl (fun ret f => setKey f.name (entries f) ret) ret) acc =
      colls.flatten.foldl (fun ret f => setKey f.name (entries f) ret) acc := by
  induction colls with
  | nil => intro acc; rfl
  | cons c colls ih =>
    intro acc
    rw [List.foldl_cons, melted_foldl c (fun f hf => h f (by simp [hf])), List.flatten_cons, List.foldl_append]
    exact ih (fun f hf => h f (by rw [List.flatten_cons]; exact List.mem_append_right _ hf)) _

/-- Fields without variables make no difference. -/
theorem melted_filter (coll : List Field) : melted coll = melted (coll.filter fun f => ! f.vars.isEmpty) := by
  unfold melted
  induction coll with
  | nil => rfl
  | cons f coll ih =>
    rw [List.flatMap_cons, ih]
    cases hv : f.vars with
    | nil => simp [hv]
    | cons v vs => simp [hv]

theorem foldl_add (l : List (String × Rat)) : ∀ t, l.foldl (fun t v => t + v.2) t = t + sumRat (l.map (·.2)) := by
  induction l with
  | nil => intro t; simp [sumRat, Rat.add_zero]
  | cons v l ih => intro t; rw [List.foldl_cons, ih, List.map_cons, sumRat, Rat.add_assoc]

theorem sumUp_eq (l : List (String × List (String × Rat))) : sumUp l = sumRat (l.map fun f => sumRat (f.2.map (·.2))) := by
  have h : ∀ t, l.foldl (fun t f => f.2.foldl (fun t v => t + v.2) t) t = t + sumRat (l.map fun f => sumRat (f.2.map (·.2))) := by
    induction l with
    | nil => intro t; simp [sumRat, Rat.add_zero]
    | cons f l ih => intro t; rw [List.foldl_cons, foldl_add, ih, List.map_cons, sumRat, Rat.add_assoc]
  unfold sumUp
  rw [h, Rat.zero_add]

/-- The last field of a name is the one found. -/
theorem foldl_last (l : List Field) (q : String) : ∀ acc : List (String × List (String × Rat)),
    (l.foldl (fun ret f => setKey f.name (entries f) ret) acc).find? (fun e => e.1 == q) =
      match l.reverse.find? (fun f => f.name == q) with
      | some f => some (q, entries f)
      | none => acc.find? (fun e => e.1 == q) := by
  induction l with
  | nil => intro acc; rfl
  | cons f l ih =>
    intro acc
    rw [List.foldl_cons, ih, List.reverse_cons, List.find?_append, setKey_find]
    cases hl : l.reverse.find? (fun f => f.name == q) with
    | some g => rfl
    | none =>
      by_cases hq : f.name = q
      · simp [hq]
      · simp [hq]

end Ocgis.Proofs.RequestSize
