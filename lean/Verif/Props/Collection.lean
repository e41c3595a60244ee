import Verif.Proofs.Collection
/-!
# C36: consistent collections
-/
namespace Ocgis.Props
open Ocgis.Collection Ocgis.Spec

/-! ## Each operation -/

/-- C36 (careful histories): after any history of operations, whether they succeed or not, the collection is consistent: nothing is
forced, what is added is itself consistent, dimensions and variables are renamed to names that are not in use, tagged names are
those of stored variables, and a tagged variable is not renamed. -/
theorem C36_history_partial (ops : List Op) : ∀ c : Coll, Consistent c → CarefulHistory c ops → Consistent (run c ops) := by
  induction ops with
  | nil => intro c h _; exact h
  | cons o os ih =>
    intro c h hc
    rw [run]
    refine ih _ ?_ hc.2
    have hco := hc.1
    cases o with
    | addDimension n s f =>
      have hf : f = false := hco
      subst hf
      obtain ⟨h1, h2, h3, h4, -⟩ := addDim_spec c n s h.dimKeys
      exact consistent_dims h h1 h2 h3 h4
    | addVariable p f =>
      obtain ⟨rfl, hp⟩ := hco
      exact addVariable_consistent c p h hp
    | removeVariable n b => exact removeVariable_consistent c n b h
    | renameDimension old new => exact renameDimension_consistent c old new h hco
    | appendToTags t ns cr => exact appendToTags_consistent c t ns cr h hco
    | setName old new => exact setName_consistent c old new h hco

/-- A history with additions, a failing one among them, tags, a rename and a removal. -/
def demoOps : List Op := [.addVariable demoTas false, .addVariable demoTime false, .addVariable demoTas false,
  .appendToTags "data" ["tas"] true, .renameDimension "x" "lon", .removeVariable "time" true]

example : Consistent {} ∧ CarefulHistory {} demoOps := by
  refine ⟨⟨by simp, by simp, by simp, by simp, by simp, by simp⟩, ⟨rfl, demoTas_consistent⟩, ⟨rfl, demoTime_consistent⟩,
    ⟨rfl, demoTas_consistent⟩, ?_, ?_, trivial, trivial⟩
  · intro n hn; simp at hn; subst hn; decide
  · exact .inr (by decide)

example : run {} demoOps = ⟨[("time", 3), ("lon", 2)], [("tas", ⟨"tas", ["time", "lon"], [3, 2], none⟩)], [("data", ["tas"])]⟩ := by decide

/-- C36: a removal takes away the variable and its bounds and nothing else: the other variables stay as they are; of the
dimensions it takes away exactly those of what was removed that no other variable has. -/
theorem C36_removal (c c' : Coll) (name : String) (h : Consistent c) (hr : removeVariable c name true = (c', none)) :
    ∃ v, (name, v) ∈ c.vars ∧ (∀ k w, (k, w) ∈ c'.vars ↔ (k, w) ∈ c.vars ∧ k ≠ name ∧ v.bounds ≠ some k) ∧
      ∀ d n, (d, n) ∈ c'.dims ↔ (d, n) ∈ c.dims ∧ ((∃ k w, (k, w) ∈ c'.vars ∧ d ∈ w.dims) ∨
        (d ∉ v.dims ∧ ∀ b bv, v.bounds = some b → (b, bv) ∈ c.vars → d ∉ bv.dims)) := by
  have hdims : ∀ (x : Coll) (ds : List String) (d : String) (n : Nat), (d, n) ∈ (removeOrphaned x ds).dims ↔ (d, n) ∈ x.dims ∧
      ((∃ k w, (k, w) ∈ x.vars ∧ d ∈ w.dims) ∨ d ∉ ds) := by
    intro x ds d n
    simp only [removeOrphaned, List.mem_filter]
    refine and_congr Iff.rfl ?_
    have hu : used x d = true ↔ ∃ k w, (k, w) ∈ x.vars ∧ d ∈ w.dims := by
      simp only [used, List.any_eq_true, List.contains_eq_mem, decide_eq_true_eq]
      constructor
      · rintro ⟨⟨k, w⟩, h1, h2⟩; exact ⟨k, w, h1, h2⟩
      · rintro ⟨k, w, h1, h2⟩; exact ⟨(k, w), h1, h2⟩
    rw [← hu]
    by_cases hc : d ∈ ds <;> by_cases hu' : used x d = true <;> simp [hc, hu']
  unfold removeVariable at hr
  cases hg : Dict.get? c.vars name with
  | none => rw [hg] at hr; simp at hr
  | some v =>
    rw [hg] at hr
    have hv := Dict.get?_mem hg
    refine ⟨v, hv, ?_⟩
    simp only at hr
    cases hb : v.bounds with
    | none =>
      have : boundsOf c v true = .ok none := by simp [boundsOf, hb]
      rw [this] at hr
      injection hr with hr _
      subst hr
      refine ⟨?_, ?_⟩
      · intro k w
        simp only [removeOrphaned, dropName, Dict.mem_erase]
        simp [and_comm]
      · intro d n
        rw [hdims]
        simp only [reduceCtorEq, false_implies, implies_true, and_true]
        rfl
    | some b =>
      cases hgb : Dict.get? c.vars b with
      | none =>
        have : boundsOf c v true = .error .keyError := by simp [boundsOf, hb, hgb]
        rw [this] at hr
        simp at hr
      | some bv =>
        have : boundsOf c v true = .ok (some bv) := by simp [boundsOf, hb, hgb]
        rw [this] at hr
        injection hr with hr _
        subst hr
        have hbm := Dict.get?_mem hgb
        have hbn : bv.name = b := h.named b bv hbm
        refine ⟨?_, ?_⟩
        · intro k w
          simp only [removeOrphaned, dropName, Dict.mem_erase, hbn]
          constructor
          · rintro ⟨h1, h2, h3⟩; exact ⟨h3, h2, by simpa using fun e => h1 e.symm⟩
          · rintro ⟨h1, h2, h3⟩; exact ⟨fun e => h3 (by rw [e]), h2, h1⟩
        · intro d n
          rw [hdims]
          refine and_congr Iff.rfl (or_congr Iff.rfl ?_)
          rw [List.mem_append, not_or]
          refine and_congr Iff.rfl ?_
          constructor
          · intro hd b' bv' e hm
            injection e with e
            subst e
            rw [Dict.mem_unique h.varKeys hm hbm]; exact hd
          · intro hd; exact hd b bv rfl hbm

example : (removeVariable (run {} [.addVariable demoTas false, .addVariable demoTime false]) "time" true).2 = none := by decide

/-- The operations other than the addition of variables and the tagging with a new tag. -/
def Simple : Op → Prop
  | .addVariable .. => False
  | .appendToTags _ _ create => create = false
  | _ => True

/-- C36: dimensions that cannot be added, variables that cannot be removed or renamed, dimensions that cannot be renamed and names
that cannot be added to a tag leave the collection as it was. -/
theorem C36_refused_partial (c : Coll) (o : Op) (e : PyErr) (ho : Simple o) (h : (step c o).2 = some e) : (step c o).1 = c := by
  cases o with
  | addVariable p f => exact ho.elim
  | addDimension n s f =>
    revert h
    simp only [step, addDim]
    cases Dict.get? c.dims n with
    | none => intro h; cases h
    | some m =>
      simp only
      split
      · intro h; cases h
      · split
        · intro h; cases h
        · intro _; rfl
  | removeVariable n b =>
    revert h
    simp only [step, removeVariable]
    cases Dict.get? c.vars n with
    | none => intro _; rfl
    | some v =>
      simp only
      split
      · intro _; rfl
      · intro h; cases h
      · intro h; cases h
  | renameDimension old new =>
    revert h
    simp only [step, renameDimension]
    cases Dict.get? c.dims old with
    | none => intro _; rfl
    | some v => intro h; cases h
  | setName old new =>
    revert h
    simp only [step, setName]
    cases Dict.get? c.vars old with
    | none => intro _; rfl
    | some v => intro h; cases h
  | appendToTags t ns cr =>
    have ho : cr = false := ho
    subst ho
    revert h
    simp only [step, appendToTags]
    cases Dict.get? c.tags t with
    | none => intro _; rfl
    | some old =>
      simp only
      split
      · intro _; rfl
      · intro h; cases h

example : (step demoTas (.renameDimension "y" "lat")).2 = some .keyError := by decide

/-- C36 is false of refused additions: the dimensions added before the refusal stay. -/
theorem C36_refused_addition_counterexample : ∃ (c p : Coll), Consistent c ∧ Consistent p ∧
    (addVariable c p false).2 = some .dimensionMismatch ∧ (addVariable c p false).1 ≠ c := by
  refine ⟨demoTas, { dims := [("level", 5), ("time", 4)] }, demoTas_consistent, ⟨by decide, by simp, by simp, by simp, by simp, by simp⟩, by decide, by decide⟩

/-- C36 is false of forced additions: a dimension of another size takes the place of that of a stored variable. -/
theorem C36_forced_counterexample : ∃ (c p : Coll), Consistent c ∧ Consistent p ∧ (addVariable c p true).2 = none ∧
    ¬ Consistent (addVariable c p true).1 := by
  refine ⟨demoTas, { dims := [("time", 4)] }, demoTas_consistent, ⟨by decide, by simp, by simp, by simp, by simp, by simp⟩, by decide, ?_⟩
  intro h
  have := h.sizes "tas" ⟨"tas", ["time", "x"], [3, 2], none⟩ (by decide) 0 "time" 3 rfl rfl
  exact absurd this (by decide)

/-- C36 is false if a dimension is given the name of another: the variable then has a dimension of the wrong size. -/
theorem C36_rename_onto_counterexample : ∃ (c : Coll) (old new : String), Consistent c ∧ (renameDimension c old new).2 = none ∧
    ¬ Consistent (renameDimension c old new).1 := by
  refine ⟨demoTas, "time", "x", demoTas_consistent, by decide, ?_⟩
  intro h
  have := (h.rank "tas" ⟨"tas", ["x", "x"], [3, 2], none⟩ (by decide)).2
  exact absurd this (by decide)

/-- C36 is false of tags: names that are not stored can be tagged, and a tagged variable that is renamed leaves its old name. -/
theorem C36_tags_counterexample : ∃ (c : Coll), Consistent c ∧
    (appendToTags c "data" ["pr"] true).2 = none ∧ ¬ Consistent (appendToTags c "data" ["pr"] true).1 ∧
    (let c1 := (appendToTags c "data" ["tas"] true).1
     Consistent c1 ∧ (setName c1 "tas" "temp").2 = none ∧ ¬ Consistent (setName c1 "tas" "temp").1) := by
  refine ⟨demoTas, demoTas_consistent, by decide, ?_, ?_, by decide, ?_⟩
  · intro h
    have := (h.tagged "data" ["pr"] (by decide)).2 "pr" (by simp)
    exact absurd this (by decide)
  · exact appendToTags_consistent _ _ _ _ demoTas_consistent (by decide)
  · intro h
    have := (h.tagged "data" ["tas"] (by decide)).2 "tas" (by simp)
    exact absurd this (by decide)

end Ocgis.Props
