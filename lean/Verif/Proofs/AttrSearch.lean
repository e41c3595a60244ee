import Verif.Spec.AttrSearch
namespace Ocgis.Proofs.AttrSearch
open Ocgis.AttrSearch Spec

variable {V : Type} [DecidableEq V]

/-- What the question is, once it is one. -/
def question (value : Option V) (pred : Option (Option V → Bool)) : Option (Option V → Bool) :=
  match value, pred with
  | some x, _ => some fun a => a = some x
  | none, some p => some p
  | none, none => none

theorem matchOne_some (value : Option V) (pred : Option (Option V → Bool)) (q) (h : question value pred = some q) (a : Option V) :
    matchOne value pred a = .ok (q a) := by
  cases value <;> cases pred <;> simp [question] at h <;> subst h <;> rfl

theorem collect_some (value : Option V) (pred : Option (Option V → Bool)) (q) (h : question value pred = some q) (v : Tagged V) (l : List (Option V)) :
    collect value pred v l = .ok (List.replicate (l.filter q).length v) := by
  induction l with
  | nil => rfl
  | cons a l ih =>
    rw [collect, matchOne_some _ _ _ h, ih]
    simp only [Except.bind, List.filter_cons]
    cases q a <;> simp [List.replicate_succ]

theorem find_some (key : Option String) (value : Option V) (pred : Option (Option V → Bool)) (q) (h : question value pred = some q)
    (vs : List (Tagged V)) : find key value pred vs = .ok (vs.flatMap fun v => List.replicate ((looked key v).filter q).length v) := by
  induction vs with
  | nil => rfl
  | cons v vs ih =>
    rw [find, collect_some _ _ _ h, ih]
    rfl

theorem lookup_attr (l : List (String × Option V)) (hl : (l.map (·.1)).Nodup) (k : String) (a : Option V) : l.lookup k = some a ↔ (k, a) ∈ l := by
  induction l with
  | nil => simp
  | cons x l ih =>
    obtain ⟨k', a'⟩ := x
    simp only [List.map_cons, List.nodup_cons, List.mem_map, not_exists, not_and] at hl
    rw [List.lookup_cons]
    split
    · next h =>
      have : k = k' := by simpa using h
      subst this
      simp only [Option.some.injEq, List.mem_cons, Prod.mk.injEq, true_and]
      constructor
      · exact fun e => Or.inl e.symm
      · rintro (e | e)
        · exact e.symm
        · exact absurd rfl (hl.1 _ e)
    · next h =>
      have : k ≠ k' := by simpa using h
      rw [ih hl.2]
      simp [this]

theorem looked_count (k : String) (q : Option V → Bool) (v : Tagged V) (hv : OneValueEach v) [Decidable (Accepted q k v)] :
    ((looked (some k) v).filter q).length = if Accepted q k v then 1 else 0 := by
  simp only [looked]
  cases h : v.attrs.lookup k with
  | none =>
    have : ¬ Accepted q k v := by
      rintro ⟨a, ha, _⟩
      rw [(lookup_attr _ hv k a).2 ha] at h
      cases h
    simp [this]
  | some a =>
    have ha := (lookup_attr _ hv k a).1 h
    simp only [List.filter_cons, List.filter_nil]
    cases hq : q a with
    | false =>
      have : ¬ Accepted q k v := by
        rintro ⟨b, hb, hqb⟩
        have := (lookup_attr _ hv k b).2 hb
        rw [h, Option.some.injEq] at this
        rw [this, hqb] at hq
        cases hq
      simp [this]
    | true =>
      have : Accepted q k v := ⟨a, ha, hq⟩
      simp [this]

theorem flatMap_filter {α} (p : α → Bool) (n : α → Nat) (l : List α) (h : ∀ x ∈ l, n x = if p x then 1 else 0) :
    (l.flatMap fun x => List.replicate (n x) x) = l.filter p := by
  induction l with
  | nil => rfl
  | cons x l ih =>
    rw [List.flatMap_cons, ih fun y hy => h y (by simp [hy]), h x (by simp), List.filter_cons]
    cases p x <;> simp

theorem names_one (l : List (String × Option V)) (hl : (l.map (·.1)).Nodup) (k : String) (a : Option V) (n : String) :
    (l.filterMap fun (x : String × Option V) => if x.1 = k ∧ x.2 = a then some n else none) = if (k, a) ∈ l then [n] else [] := by
  induction l with
  | nil => rfl
  | cons x l ih =>
    obtain ⟨k', a'⟩ := x
    simp only [List.map_cons, List.nodup_cons, List.mem_map, not_exists, not_and] at hl
    rw [List.filterMap_cons, ih hl.2]
    by_cases h : k' = k ∧ a' = a
    · obtain ⟨rfl, rfl⟩ := h
      have : (k', a') ∉ l := fun hm => hl.1 _ hm rfl
      simp [this]
    · have h' : ¬ (k = k' ∧ a = a') := fun ⟨e1, e2⟩ => h ⟨e1.symm, e2.symm⟩
      simp only [if_neg h, List.mem_cons, Prod.mk.injEq, h', false_or]

theorem names_filter (k : String) (a : Option V) (vars : List (Tagged V)) (hv : ∀ v ∈ vars, OneValueEach v) :
    findNames k a vars = (vars.filter fun v => CarriesAttr v k a).map (·.name) := by
  induction vars with
  | nil => rfl
  | cons v vs ih =>
    have := ih fun w hw => hv w (by simp [hw])
    rw [findNames] at this ⊢
    rw [List.flatMap_cons, this, names_one _ (hv v (by simp)), List.filter_cons]
    by_cases h : (k, a) ∈ v.attrs <;> simp [CarriesAttr, h]

end Ocgis.Proofs.AttrSearch
