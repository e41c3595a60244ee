import Verif.Proofs.CalcEngine

/-! # C76: the calculation engine -/

namespace Ocgis.Props
open Ocgis Ocgis.CalcEngine Ocgis.Spec

/-! ## Adding -/

/-! ## The cache -/

/-- The calculations of an engine on any sequence of collections, when fields with the same name have the same times and no
calculation is given as text or brings its own grouping: each field ends with the results of each calculation for each of its data
variables, grouped by its own times, in place of the data variables. -/
theorem C76_results_partial {τ γ : Type} (c : Config τ γ) (colls : List (List (Field τ γ)))
    (hs : SameTimes colls.flatten) (h : ∀ coll ∈ colls, ∀ f ∈ coll, Applicable c f ∧ NamesDiffer c f) :
    executeAll c [] colls = .ok (colls.map (List.map (finished c))) := by
  refine executeAll_eq (fields := colls.flatten) hs ?_ ?_
  · unfold CacheOk Right
    cases c.grouping with
    | none => rfl
    | some group => intro f _ g hg; simp at hg
  · intro coll hc f hf
    exact ⟨List.mem_flatten.mpr ⟨coll, hc, hf⟩, h coll hc f hf⟩

/-- Two geometries. -/
example : executeAll byYear [] [[weather [0, 1, 12]], [weather [0, 1, 12]]] =
    .ok [[finished byYear (weather [0, 1, 12])], [finished byYear (weather [0, 1, 12])]] := by
  refine C76_results_partial byYear _ ?_ ?_
  · unfold SameTimes
    decide
  · intro coll hc f hf
    simp at hc
    subst hc
    simp at hf
    subst hf
    exact weather_ok _

example : (finished byYear (weather [0, 1, 12])).outs =
    [("average_tas", ⟨"mean", ["tas"], some [0, 0, 1], false⟩), ("average_rhs", ⟨"mean", ["rhs"], some [0, 0, 1], false⟩),
      ("heat", ⟨"heat_index", ["tas", "rhs"], some [0, 0, 1], false⟩)] := by
  decide

/-- When the name of a result is not unique, or is that of a variable that stays, this is an error: no variable is replaced silently. -/
theorem C76_clash {τ γ : Type} (c : Config τ γ) (field : Field τ γ) (ha : Applicable c field) :
    executeAll c [] [[field]] = .error .variableInCollection ↔ ¬ NamesDiffer c field := by
  have hc : Found c (remember c [] [field]) field := by
    have hs : SameTimes [field] := by
      intro a ha b hb _
      simp at ha hb
      rw [ha, hb]
    refine (remember_ok (fields := [field]) hs (cache := []) ?_ (by simp)).2 field (by simp)
    unfold CacheOk Right
    cases c.grouping with
    | none => rfl
    | some group => intro f _ g hg; simp at hg
  obtain ⟨h1, h2⟩ := executeField_eq ha hc
  unfold executeAll execute executeFields
  constructor
  · intro h hd
    rw [h1 hd] at h
    simp [executeFields, executeAll] at h
  · intro hd
    rw [h2 hd]

/-- A single calculation given as text puts one variable, named by its left side, in place of the data variables. -/
theorem C76_text_partial {τ γ : Type} (c : Config τ γ) (field : Field τ γ) (f : Func) (e out : List Char) (hf : c.funcs = [f])
    (hk : f.kind = .text) (hg : c.grouping = none) (hd : field.data ≠ [])
    (he : EvalString.evalString f.func.toList (EvalString.mapVars (field.data.map String.toList)) = .ok (e, out))
    (ho : String.ofList out ∉ field.others) :
    executeAll c [] [[field]] = .ok [[{ field with
      data := [String.ofList out]
      outs := [(String.ofList out, ⟨f.func, field.data, none, false⟩)]
      grouped := none }]] := by
  have hc : ¬ field.others.contains (String.ofList out) = true := by simpa using ho
  simp [executeAll, execute, executeFields, remember, hg, executeField, hf, runFuncs, runFunc, hk, hd, he, add, Except.map,
    install, ho]

example : executeAll (everyStep [⟨.text, "es=tas+rhs", ""⟩]) [] [[weather [0, 1]]] =
    .ok [[{ weather [0, 1] with data := ["es"], outs := [("es", ⟨"es=tas+rhs", ["tas", "rhs"], none, false⟩)] }]] := by
  decide

/-- Two datasets whose fields have the same name, which is that of the variable unless given: the second is grouped by the times of
the first. -/
theorem C76_same_name_counterexample :
    (executeAll byYear [] [[weather [0, 1, 12]], [weather [24, 25, 36]]]).map (fun colls => colls.map (fun coll => coll.map (fun f => f.grouped))) =
      .ok [[some [0, 0, 1]], [some [0, 0, 1]]] := by
  decide

/-- Of several calculations given as text only the first is carried out, again and again, which fails: its name is taken. -/
theorem C76_two_texts_counterexample :
    executeAll (everyStep [⟨.text, "es=tas+rhs", ""⟩, ⟨.text, "ed=tas-rhs", ""⟩]) [] [[weather [0, 1]]] =
      .error .variableInCollection := by
  decide

/-- A calculation given as text after another one is refused: the other one is read as text. -/
theorem C76_text_second_counterexample :
    executeAll (everyStep [⟨.univariate, "divide", "half"⟩, ⟨.text, "es=tas+rhs", ""⟩]) [] [[weather [0, 1]]] =
      .error .valueError := by
  decide

/-- A calculation after one that brings its own grouping is grouped like it, although no grouping is asked for; before it, it is not
grouped. -/
theorem C76_daily_counterexample :
    (executeAll (everyStep [⟨.daily, "daily_perc", "p"⟩, ⟨.univariate, "divide", "half"⟩]) [] [[weather [0, 12]]]).map
        (fun colls => colls.flatten.map fun f => (f.outs.lookup "half_tas").map fun o => o.grouping) = .ok [some (some [0, 0])] ∧
    (executeAll (everyStep [⟨.univariate, "divide", "half"⟩, ⟨.daily, "daily_perc", "p"⟩]) [] [[weather [0, 12]]]).map
        (fun colls => colls.flatten.map fun f => (f.outs.lookup "half_tas").map fun o => o.grouping) = .ok [some none] := by
  decide

/-- Different names of calculations do not suffice: `a` of `b_c` and `a_b` of `c` have the same result name. -/
theorem C76_names_counterexample :
    executeAll (everyStep [⟨.univariate, "divide", "a"⟩, ⟨.univariate, "exp", "a_b"⟩]) []
      [[{ name := "f", times := [0], data := ["b_c", "c"], others := [] }]] = .error .variableInCollection := by
  decide

end Ocgis.Props
