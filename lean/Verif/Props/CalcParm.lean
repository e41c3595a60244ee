import Verif.Proofs.CalcParm

/-!
# C77: the calculation argument

A calculation argument, text or dictionaries, names exactly the functions, aliases and parameters written in it.
-/

namespace Ocgis.Props
open Ocgis Ocgis.Text Ocgis.CalcParm Ocgis.Spec

/-! ### The registry -/

/-- Whatever registries were created before, a key that is none of the library's (nor ICCLIM's) stands for the function with that
key a program appended last.  `_partial`: for keys of the library see the counterexample. -/
theorem C77_registry_partial (w : World) (es : List Event) (k : Text) (hlib : ∀ x ∈ w.library, x.key ≠ k)
    (hicc : ¬ "icclim_".toList <+: k) (c : Class) :
    findClass { w with reg := regAfter w.library es [] } k = some c ↔ LastIn (appended es) k c := by
  rw [findClass_iff]
  unfold ResolvesTo
  simp only [hicc, false_and, and_false, or_false]
  rw [lastIn_append_right _ _ _ _ hlib, ← find_last, ← find_last, lookupKey_filter, regAfter_filter _ _ _ _ hlib,
    ← lookupKey_filter]
  rfl

example : findClass { world with reg := regAfter world.library program [] } "double".toList = some { key := "double".toList, vars := ["a".toList] } :=
  (C77_registry_partial world _ _ (by decide) (by decide) _).2
    ⟨[{ key := "double".toList }], [], rfl, rfl, by simp⟩

/-- A function appended under a key of the library is not used: creating a registry puts the library's back. -/
theorem C77_override_counterexample :
    ∃ (w : World) (es : List Event) (c : Class), LastIn (appended es) "mean".toList c
      ∧ findClass { w with reg := regAfter w.library es [] } "mean".toList = some mean ∧ c ≠ mean := by
  refine ⟨world, [.create, .append { key := "mean".toList, vars := ["a".toList] }],
    { key := "mean".toList, vars := ["a".toList] }, ⟨[], [], rfl, rfl, by simp⟩, by decide +kernel, by decide⟩

/-! ### Dictionaries -/

/-- Dictionaries are accepted exactly if every function is known and takes the parameters given, and the aliases are all different;
the value then says what the dictionaries say, in order.  What is refused is refused with a validation error.  `_partial`: text
values in lower case (see the counterexample) and no text to be evaluated among the functions. -/
theorem C77_dictionaries_partial (w : World) (rs : List Request) (is : List Item) (hd : List.Forall₂ AsDict rs is)
    (he : ∀ r ∈ rs, '=' ∉ r.func) (hl : ∀ r ∈ rs, ∀ k t, (k, Val.text t) ∈ r.kwds → IsLower t) :
    (∀ ds, calcValue w (.list is) = .ok (some ds) ↔ List.Forall₂ (Carries w) rs ds ∧ (rs.map Request.label).Nodup)
    ∧ (∀ e, calcValue w (.list is) = .error e → e = .definitionValidation)
    ∧ calcValue w (.list is) ≠ .ok none :=
  calcItems w (.list is) rs is rfl hd he hl

example : calcValue world (.list [.dict (some "mean".toList) (some "M".toList) none true false,
      .dict (some "between".toList) (some "b".toList) (some [("lower".toList, .int 1), ("upper".toList, .text "x".toList)]) false false])
    = .ok (some [⟨"mean".toList, .cls mean, some "M".toList, [], false⟩,
      ⟨"between".toList, .cls between, some "b".toList, [("lower".toList, .int 1), ("upper".toList, .text "x".toList)], false⟩]) := by
  decide +kernel

example : calcValue world (.list [.dict (some "between".toList) (some "b".toList) (some [("low".toList, .int 1)]) false false])
    = .error .definitionValidation := by decide +kernel

/-! ### Text -/

/-- Calculations written in text, separated by bars, are accepted exactly if every function is known and takes the parameters given,
and the aliases are all different; the value then says what the text says, in order.  What is refused is refused with a validation
error.  `_partial`: lower case text whose keywords are all well formed (see the counterexamples). -/
theorem C77_text_partial (w : World) (ws : List Written) (hne : ws ≠ []) (h : ∀ x ∈ ws, x.Plain) :
    (∀ ds, calcValue w (.text (joined '|' (ws.map Written.text))) = .ok (some ds)
      ↔ List.Forall₂ (Carries w) (ws.map (Written.request w)) ds ∧ (ws.map Written.label).Nodup)
    ∧ (∀ e, calcValue w (.text (joined '|' (ws.map Written.text))) = .error e → e = .definitionValidation)
    ∧ calcValue w (.text (joined '|' (ws.map Written.text))) ≠ .ok none := by
  obtain ⟨is, h1, h2⟩ := asDict_written w ws h
  have hi : itemsOf w (.text (joined '|' (ws.map Written.text))) = .ok (some is) := by
    simp only [itemsOf]
    rw [split_unique '|' _ (by simpa using hne) (by
      intro t ht
      obtain ⟨x, hx, rfl⟩ := List.mem_map.1 ht
      exact bar_free x (h x hx).1), h1]
    split
    · rename_i heq
      cases heq
    · rename_i heq
      cases heq
      cases ws with
      | nil => exact absurd rfl hne
      | cons x ws =>
        cases h2 with
        | cons ha _ =>
          obtain ⟨m, ha | ⟨_, ha⟩⟩ := ha <;> cases ha
    · rename_i heq
      cases heq
      rfl
  have := calcItems w _ (ws.map (Written.request w)) is hi h2
    (by
      intro r hr
      obtain ⟨x, hx, rfl⟩ := List.mem_map.1 hr
      exact (h x hx).1.1.2.2)
    (by
      intro r hr
      obtain ⟨x, hx, rfl⟩ := List.mem_map.1 hr
      exact lower_value w x (h x hx))
  simpa [List.map_map, Function.comp_def, Written.request] using this

example : calcValue world (.text "mean~m|between~b!lower~1!upper~3".toList)
    = .ok (some [⟨"mean".toList, .cls mean, some "m".toList, [], false⟩,
      ⟨"between".toList, .cls between, some "b".toList, [("lower".toList, .float 1), ("upper".toList, .float 3)], false⟩]) := by
  decide +kernel

example : (⟨"between".toList, "b".toList, [("lower".toList, "1".toList), ("upper".toList, "3".toList)]⟩ : Written).Plain :=
  ⟨⟨by decide, by decide, by decide, by unfold IsLower; decide, (trimmed_iff _ _).2 (by decide)⟩, by decide⟩

/-- A keyword that is written more than once has the value written last. -/
theorem C77_repeated_keyword (w : World) (x : Written) (h : x.Clean) (ds : List Def)
    (hv : calcValue w (.text x.text) = .ok (some ds)) :
    ∃ d, ds = [d] ∧ d.func = x.func ∧ d.name = some x.label ∧ (d.kwds.map Prod.fst).Nodup ∧
      ∀ k v, (k, v) ∈ d.kwds ↔ ∃ l1 t l2, x.kwds = l1 ++ (k, t) :: l2 ∧ k ∉ l2.map Prod.fst ∧
        v = match w.float t with
          | some q => .float q
          | none => .text t := by
  have hm : (putAll w x.kwds []).map (fun p => (p.1, lowerVal p.2)) = putAll w x.kwds [] := by
    conv => rhs; rw [← List.map_id (putAll w x.kwds [])]
    apply List.map_congr_left
    rintro ⟨k, v⟩ hp
    rcases (mem_putAll w x.kwds k v []).1 hp with ⟨l1, t, l2, he, -, rfl⟩ | ⟨-, hn⟩
    · have := lower_kwd w x h (k, t) (by rw [he]; simp)
      simp only [id_eq]
      rw [this]
    · cases hn
  have hf : '=' ∉ x.func := h.1.2.2
  unfold calcValue at hv
  rw [itemsOf_clean w x h] at hv
  simp only [parseItems, parseItem, Option.map_some, List.contains_iff_mem, hf, Option.some.injEq, if_false] at hv
  cases hc : findClass w x.func with
  | none => rw [hc] at hv; cases hv
  | some c =>
    rw [hc] at hv
    simp only [Option.getD_some, hm] at hv
    split at hv
    · cases hv
    · injection hv with hv
      injection hv with hv
      subst hv
      refine ⟨_, rfl, rfl, rfl, putAll_nodup w x.kwds [] (by simp), ?_⟩
      intro k v
      rw [mem_putAll]
      simp only [List.not_mem_nil, and_false, or_false]
      rfl

example : ∃ ds, calcValue world (.text "between~b!lower~1!upper~3!lower~2".toList) = .ok (some ds) ∧
    ds.map Def.kwds = [[("lower".toList, .float 2), ("upper".toList, .float 3)]] := by
  exact ⟨[⟨"between".toList, .cls between, some "b".toList, [("lower".toList, .float 2), ("upper".toList, .float 3)], false⟩],
    by decide +kernel, rfl⟩

/-- Text that neither names a function with an alias nor is to be evaluated is refused. -/
theorem C77_no_alias (w : World) (t : Text) (h1 : '~' ∉ t) (h2 : '=' ∉ t) (h3 : '|' ∉ t) (h4 : IsLower t) (h5 : Trimmed t t)
    (h6 : t ≠ "none".toList) : calcValue w (.text t) = .error .definitionValidation := by
  have hs : split '|' t = [t] := by
    have := split_unique '|' [t] (by simp) (by simpa using h3)
    simpa [joined] using this
  have hp : parseString w t = .error .definitionValidation := by
    unfold parseString
    rw [lower_id t h4, trimmed_strip t t h5, if_neg h6, parseText1, split1_none _ _ h1]
    simp only [List.contains_iff_mem, h2, if_false]
  have hm : [t].mapM (parseString w) = .error .definitionValidation := by
    rw [resMapM_cons, hp]
  simp only [calcValue, itemsOf, hs, hm]

example : calcValue world (.text "mean".toList) = .error .definitionValidation :=
  C77_no_alias world _ (by decide) (by decide) (by decide) (by unfold IsLower; decide) ((trimmed_iff _ _).2 (by decide)) (by decide)

/-- A dictionary with a key that means nothing is refused, whatever the other dictionaries are.  `_partial`: no text to be evaluated is
among the calculations; if it is the last one nothing is checked (see `C77_unknown_counterexample`). -/
theorem C77_other_key_partial (w : World) (is : List Item)
    (h : ∀ i ∈ is, ∃ f n k m o, i = .dict (some f) (some n) k m o ∧ '=' ∉ f)
    (hm : ∃ f n k m, Item.dict f n k m true ∈ is) : calcValue w (.list is) = .error .definitionValidation := by
  obtain ⟨h1, h2⟩ := parseItems_flag w is h
  obtain ⟨f, n, k, m, hm⟩ := hm
  simp only [calcValue, itemsOf]
  cases hp : parseItems w false is with
  | error e => rw [h1 e hp]
  | ok r =>
    obtain ⟨flag, ds⟩ := r
    obtain ⟨rfl, h3⟩ := h2 _ _ hp
    obtain ⟨d, hd, hd'⟩ := h3 _ _ _ _ _ hm
    have : ds.all validDef = false := by
      rw [← Bool.not_eq_true, List.all_eq_true]
      intro ha
      have := ha d hd
      simp [validDef, hd'] at this
    simp only [validateDefs, Bool.false_eq_true, if_false, this]
    split
    · rename_i heq
      split at heq <;> (injection heq with heq; rw [heq])
    · rename_i heq
      split at heq <;> cases heq

example : calcValue world (.list [.dict (some "mean".toList) (some "m".toList) none false false,
    .dict (some "mean".toList) (some "n".toList) none false true]) = .error .definitionValidation := by
  refine C77_other_key_partial world _ ?_ ⟨_, _, _, _, List.mem_cons_of_mem _ List.mem_cons_self⟩
  intro i hi
  simp only [List.mem_cons, List.not_mem_nil, or_false] at hi
  rcases hi with rfl | rfl
  · exact ⟨_, _, _, _, _, rfl, by decide⟩
  · exact ⟨_, _, _, _, _, rfl, by decide⟩

/-- No calculations. -/
theorem C77_none (w : World) (t : Text) (h : lower t = "none".toList) :
    calcValue w .null = .ok none ∧ calcValue w (.text t) = .ok none := by
  refine ⟨rfl, ?_⟩
  have hb : '|' ∉ t := by
    intro hm
    have : Char.toLower '|' ∈ lower t := List.mem_map_of_mem hm
    rw [h] at this
    revert this
    decide
  have hs : split '|' t = [t] := by
    have := split_unique '|' [t] (by simp) (by simpa using hb)
    simpa [joined] using this
  have hp : parseString w t = .ok .null := by
    unfold parseString
    rw [h, if_pos (by decide)]
  have hm : [t].mapM (parseString w) = .ok [.null] := by
    rw [resMapM_cons, hp]
    rfl
  simp only [calcValue, itemsOf, hs, hm]

example : lower "None".toList = "none".toList := by decide

/-- A keyword that is not `name~value` makes all keywords disappear: the percentile asked for is not the one computed. -/
theorem C77_malformed_counterexample :
    calcValue world (.text "daily_perc~p!percentile~10!leap".toList)
      = .ok (some [⟨"daily_perc".toList, .cls dailyPerc, some "p".toList, [], false⟩]) := by decide +kernel

/-- Text is put in lower case: the alias is another one, and functions with capital letters cannot be asked for. -/
theorem C77_case_counterexample :
    calcValue world (.text "mean~MyMean".toList) = .ok (some [⟨"mean".toList, .cls mean, some "mymean".toList, [], false⟩])
    ∧ calcValue world (.text "icclim_TG~tg".toList) = .error .definitionValidation
    ∧ calcValue world (.list [.dict (some "icclim_TG".toList) (some "tg".toList) none false false])
      = .ok (some [⟨"icclim_TG".toList, .cls icclimTG, some "tg".toList, [], false⟩]) := by decide +kernel

/-- The names of variables given to a multivariate function in a dictionary are put in lower case too. -/
theorem C77_variable_case_counterexample :
    calcValue world (.list [.dict (some "heat_index".toList) (some "hi".toList)
        (some [("tas".toList, .text "TAS".toList), ("rhs".toList, .text "RHS".toList)]) false false])
      = .ok (some [⟨"heat_index".toList, .cls heatIndex, some "hi".toList,
        [("tas".toList, .text "tas".toList), ("rhs".toList, .text "rhs".toList)], false⟩]) := by decide +kernel

/-- Text in a list that names a function, or `none` among other calculations, is a `TypeError`; text to be evaluated in a dictionary is
a `KeyError`. -/
theorem C77_error_counterexample :
    calcValue world (.list [.text "mean~m".toList]) = .error .typeError
    ∧ calcValue world (.text "mean~m|none".toList) = .error .typeError
    ∧ calcValue world (.list [.dict (some "x=tas+4".toList) (some "x".toList) none false false]) = .error .keyError := by
  decide +kernel

/-- Aliases are not compared if the last calculation is text to be evaluated; two such texts are refused if it is not. -/
theorem C77_alias_counterexample :
    calcValue world (.text "mean~m|between~m|x=tas+4".toList)
      = .ok (some [⟨"mean".toList, .cls mean, some "m".toList, [], false⟩,
        ⟨"between".toList, .cls between, some "m".toList, [], false⟩, ⟨"x=tas+4".toList, .eval, none, [], false⟩])
    ∧ calcValue world (.text "x=tas+4|y=tas+5|mean~m".toList) = .error .definitionValidation := by decide +kernel

/-- Functions without parameters accept any keyword; unknown keywords are accepted before text to be evaluated. -/
theorem C77_unknown_counterexample :
    calcValue world (.text "mean~m!bogus~1".toList)
      = .ok (some [⟨"mean".toList, .cls mean, some "m".toList, [("bogus".toList, .float 1)], false⟩])
    ∧ calcValue world (.text "between~m!bogus~1|x=tas+4".toList)
      = .ok (some [⟨"between".toList, .cls between, some "m".toList, [("bogus".toList, .float 1)], false⟩,
        ⟨"x=tas+4".toList, .eval, none, [], false⟩]) := by decide +kernel

/-! ### Parameters -/

/-- A function receives each parameter under its name with the value given, as a value of the type in its definition; variables and
parameters without a type are passed on as they are.  `_partial`: text for truth values and values that are not of the type are not
treated as they should be, see the counterexamples. -/
theorem C77_parameters_partial (w : World) (c : Class) (ps : List (Text × Option Ty)) (hc : c.parms = some ps)
    (kwds out : List (Text × Val))
    (h : List.Forall₂ (fun p q => p.1 = q.1 ∧
      ((ps.lookup p.1 = some none ∧ p.2 = q.2)
      ∨ (ps.lookup p.1 = none ∧ p.1 ∈ c.vars ∧ p.2 = q.2)
      ∨ ∃ t, ps.lookup p.1 = some (some t) ∧ Denotes w t p.2 q.2 ∧ (t = .bool → ∀ s, p.2 ≠ .text s))) kwds out) :
    formatParms w c kwds = .ok out := by
  unfold formatParms
  rw [hc]
  simp only
  induction h with
  | nil => rfl
  | @cons p q ks os h _ ih =>
    rw [resMapM_cons, ih]
    obtain ⟨k, v⟩ := p
    obtain ⟨k', v'⟩ := q
    obtain ⟨hk, h⟩ := h
    simp only at hk h
    subst hk
    have hp : formatParm w c ps k v = .ok v' := by
      rcases h with ⟨h, rfl⟩ | ⟨h, hv, rfl⟩ | ⟨t, h, hd, hb⟩
      · simp [formatParm, h]
      · have : c.vars ≠ [] := by intro he; rw [he] at hv; cases hv
        simp [formatParm, h, this, hv]
      · simp [formatParm, h, convert_denotes w t v v' hd hb]
    simp [hp]

example : formatParms world between [("lower".toList, .int 1), ("upper".toList, .text "3".toList)]
    = .ok [("lower".toList, .float 1), ("upper".toList, .float 3)] := by
  refine C77_parameters_partial world between _ rfl _ _ (.cons ⟨rfl, Or.inr (Or.inr ⟨.float, by decide, ?_, by simp⟩)⟩
    (.cons ⟨rfl, Or.inr (Or.inr ⟨.float, by decide, ?_, by simp⟩)⟩ .nil))
  · exact Denotes.ofInt 1
  · exact Denotes.floatText _ 3 (by decide +kernel)

/-- The text `false` is true. -/
theorem C77_truth_counterexample :
    BoolText "false".toList false
    ∧ formatParms world dailyPerc [("only_leap_years".toList, .text "false".toList)]
      = .ok [("only_leap_years".toList, .bool true)] :=
  ⟨.no _ (by decide), by decide +kernel⟩

/-- A value that is no number is accepted as the value of a numerical parameter; the function is what fails. -/
theorem C77_value_counterexample :
    calcValue world (.text "between~b!lower~low".toList)
      = .ok (some [⟨"between".toList, .cls between, some "b".toList, [("lower".toList, .text "low".toList)], false⟩])
    ∧ formatParms world between [("lower".toList, .text "low".toList)] = .error .valueError := by decide +kernel

end Ocgis.Props
