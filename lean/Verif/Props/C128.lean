import Verif.Proofs.AttrSearch
/-!
# C128: Looking for variables by an attribute
-/
namespace Ocgis.Props
open Spec Ocgis.AttrSearch Proofs.AttrSearch

variable {V : Type} [DecidableEq V]

/-- With a name and a value the answer is the variables that have the attribute with the value, once each and in their order, whatever the question
that is given besides. Missing: `None` as value and no name (below). -/
theorem C128_value_partial (k : String) (x : V) (pred : Option (Option V → Bool)) (vars : List (Tagged V)) (hv : ∀ v ∈ vars, OneValueEach v) :
    find (some k) (some x) pred vars = .ok (vars.filter fun v => CarriesAttr v k (some x)) := by
  rw [find_some (some k) (some x) pred _ rfl]
  congr 1
  refine flatMap_filter _ _ _ fun v hm => ?_
  have he : Accepted (fun a => decide (a = some x)) k v ↔ CarriesAttr v k (some x) := by simp [Accepted]
  haveI : Decidable (Accepted (fun a => decide (a = some x)) k v) := decidable_of_iff _ he.symm
  rw [looked_count k _ v (hv v hm)]
  simp only [he, decide_eq_true_eq]

/-- With a name and a question the answer is the variables with the attribute and a value the question accepts. -/
theorem C128_question_partial (k : String) (p : Option V → Bool) (vars : List (Tagged V)) (hv : ∀ v ∈ vars, OneValueEach v)
    [∀ v, Decidable (Accepted p k v)] :
    find (some k) none (some p) vars = .ok (vars.filter fun v => Accepted p k v) := by
  rw [find_some (some k) none (some p) p rfl]
  congr 1
  refine flatMap_filter _ _ _ fun v hm => ?_
  rw [looked_count k _ v (hv v hm)]
  simp only [decide_eq_true_eq]

example : (∀ v ∈ [Tagged.mk "a" [("axis", some 1)], ⟨"b", [("units", some 1)]⟩, ⟨"c", [("x", none), ("axis", some 1)]⟩], OneValueEach v) ∧
    find (some "axis") (some 1) none [⟨"a", [("axis", some 1)]⟩, ⟨"b", [("units", some 1)]⟩, ⟨"c", [("x", none), ("axis", some 1)]⟩] =
      .ok [⟨"a", [("axis", some 1)]⟩, ⟨"c", [("x", none), ("axis", some 1)]⟩] := by
  refine ⟨?_, by decide +kernel⟩
  unfold OneValueEach
  decide +kernel

/-- Without a name a variable is in the answer once for each attribute with the value: with two such attributes it is there twice. -/
theorem C128_unnamed_never (x : V) (pred : Option (Option V → Bool)) (vars : List (Tagged V)) :
    ∃ r, find none (some x) pred vars = .ok r ∧ (∀ v, v ∈ r ↔ v ∈ vars ∧ ∃ k, CarriesAttr v k (some x)) ∧
      ∀ v, r.count v = vars.count v * attrsWith (some x) v := by
  refine ⟨_, find_some none (some x) pred _ rfl vars, ?_, ?_⟩
  · intro v
    simp only [List.mem_flatMap, looked, List.mem_replicate, CarriesAttr]
    constructor
    · rintro ⟨w, hw, hn, rfl⟩
      refine ⟨hw, ?_⟩
      obtain ⟨a, ha⟩ := List.exists_mem_of_length_pos (Nat.pos_of_ne_zero hn)
      simp only [List.mem_filter, List.mem_map, decide_eq_true_eq] at ha
      obtain ⟨⟨y, hy, rfl⟩, e⟩ := ha
      exact ⟨y.1, by rw [← e]; exact hy⟩
    · rintro ⟨hv, k, hk⟩
      refine ⟨v, hv, ?_, rfl⟩
      refine Nat.ne_of_gt (List.length_pos_of_mem (a := some x) ?_)
      simp only [List.mem_filter, List.mem_map, decide_eq_true_eq, and_true]
      exact ⟨_, hk, rfl⟩
  · intro v
    induction vars with
    | nil => simp
    | cons w vars ih =>
      rw [List.flatMap_cons, List.count_append, ih, List.count_replicate, List.count_cons]
      have hl : ∀ w : Tagged V, ((looked none w).filter fun a => decide (a = some x)).length = attrsWith (some x) w := by
        intro w
        simp only [looked, attrsWith, List.filter_map, List.length_map]
        rfl
      rw [hl]
      by_cases h : w = v
      · subst h
        simp [Nat.add_mul, Nat.add_comm]
      · simp [h]

example : find none (some 1) none [⟨"a", [("p", some 1), ("q", some 2), ("r", some 1)]⟩] =
    .ok [⟨"a", [("p", some 1), ("q", some 2), ("r", some 1)]⟩, ⟨"a", [("p", some 1), ("q", some 2), ("r", some 1)]⟩] := by decide +kernel

/-- An attribute `None` cannot be looked for by its value: if a variable has the attribute the call is refused, as if nothing had been asked; and a
call that asks for nothing is not refused if no variable has the attribute. -/
theorem C128_none_never (k : String) (vars : List (Tagged V)) (hv : ∀ v ∈ vars, OneValueEach v) :
    ((∃ v ∈ vars, ∃ a, CarriesAttr v k a) → find (V := V) (some k) none none vars = .error .valueError) ∧
    ((∀ v ∈ vars, ∀ a, ¬ CarriesAttr v k a) → find (V := V) (some k) none none vars = .ok []) := by
  induction vars with
  | nil => simp [find]
  | cons v vs ih =>
    have ih := ih fun w hw => hv w (by simp [hw])
    rw [find]
    simp only [looked]
    cases h : v.attrs.lookup k with
    | none =>
      have hn : ∀ a, ¬ CarriesAttr v k a := by
        intro a ha
        rw [(lookup_attr _ (hv v (by simp)) k a).2 ha] at h
        cases h
      constructor
      · rintro ⟨w, hw, a, ha⟩
        rcases List.mem_cons.1 hw with rfl | hw
        · exact absurd ha (hn a)
        · rw [ih.1 ⟨w, hw, a, ha⟩]
          rfl
      · intro hall
        rw [ih.2 fun w hw => hall w (by simp [hw])]
        rfl
    | some a =>
      have ha := (lookup_attr _ (hv v (by simp)) k a).1 h
      exact ⟨fun _ => rfl, fun hall => absurd ha (hall v (by simp) a)⟩

example : find (V := Nat) (some "p") none none [⟨"a", [("p", none)]⟩] = .error .valueError ∧
    find (V := Nat) (some "p") none none [⟨"a", [("q", none)]⟩] = .ok [] := by decide +kernel

/-- The search in metadata gives the names of the variables that have the attribute with the value, `None` among the values. -/
theorem C128_metadata (k : String) (a : Option V) (vars : List (Tagged V)) (hv : ∀ v ∈ vars, OneValueEach v) :
    findNames k a vars = (vars.filter fun v => CarriesAttr v k a).map (·.name) := names_filter k a vars hv

example : findNames "p" (none : Option Nat) [⟨"a", [("p", none)]⟩, ⟨"b", [("p", some 1)]⟩] = ["a"] := by decide +kernel

/-- Both searches agree on values. -/
theorem C128_agree (k : String) (x : V) (vars : List (Tagged V)) (hv : ∀ v ∈ vars, OneValueEach v) :
    (find (some k) (some x) none vars).map (fun r => r.map (·.name)) = .ok (findNames k (some x) vars) := by
  rw [C128_value_partial k x none vars hv, C128_metadata k (some x) vars hv]
  rfl

end Ocgis.Props
