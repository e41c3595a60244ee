import Verif.Proofs.Ops


namespace Ocgis.Props
open Ocgis Ocgis.Ops Ocgis.Spec.Ops

/-- Constructing operations succeeds exactly if the arguments, as the object then holds them, obey the documented rules.
Missing: calculations mixing expressions and functions, a multivariate function used twice or written to GeoJSON from several
datasets, and an empty list of calculations; the rules are not enforced as documented there. -/
theorem C71_construct_partial (ranks : Nat) (ds : List Dataset) (kwargs : List Assign)
    (hs : Simple (construct ranks ds kwargs).1) :
    (construct ranks ds kwargs).2 = none ↔ Valid ranks (construct ranks ds kwargs).1 := by
  unfold construct at hs ⊢
  rw [simple_validate] at hs
  exact validate_iff ranks _ hs (flagOk_fold kwargs _ (by intro cs c hc; cases hc))

/-- After any history of construction and assignments, refused or not, the next assignment is accepted exactly if the object
then obeys the documented rules: no invalid combination is ever accepted and no valid one refused.  Missing: as for
construction. -/
theorem C71_assign_partial (ranks : Nat) (a : Args) (ha : Reachable ranks a) (s : Assign)
    (hs : Simple (assign ranks a s).1) :
    (assign ranks a s).2 = none ↔ Valid ranks (assign ranks a s).1 := by
  unfold assign at hs ⊢
  rw [simple_validate] at hs
  exact validate_iff ranks _ hs (flagOk_store a s (flagOk_reachable ranks a ha))

/-- Non-vacuity: two datasets and a multivariate function to netCDF are accepted, and clipping is then refused. -/
example :
    let ds : List Dataset := [{ crs := some .wgs84, names := ["tas"] }, { crs := some .wgs84, names := ["rhs"] }]
    let kw : List Assign := [.format .nc, .calcs (some [⟨"heat_index", .multi ["tas", "rhs"], [("tas", "tas"), ("rhs", "rhs")]⟩])]
    (construct 1 ds kw).2 = none ∧ Reachable 1 (construct 1 ds kw).1 ∧
      (assign 1 (construct 1 ds kw).1 (.clip true)).2 = some .definitionValidation :=
  ⟨by decide, .construct _ _ (by decide), by decide⟩

/-- Assigning to one argument leaves every other as it was, over any history: an argument not assigned to keeps its value, and
one assigned to has the value given last.  The output coordinate system is covered by `C71_output_crs_partial`. -/
theorem C71_last_value (ranks : Nat) (a : Args) (before after : List Assign) (s : Assign)
    (hn : argument s ≠ "output_crs") (ho : ∀ t ∈ after, argument t ≠ argument s) :
    Reads (assignAll ranks a (before ++ s :: after)).1 s ∧
    (Reads a s → Reads (assignAll ranks a after).1 s) := by
  have key : ∀ (after : List Assign) (a : Args), (∀ t ∈ after, argument t ≠ argument s) → Reads a s →
      Reads (assignAll ranks a after).1 s := by
    intro after
    induction after with
    | nil => intro a _ h; exact h
    | cons t after ih =>
      intro a ho h
      rw [assignAll_cons]
      refine ih _ (fun x hx => ho x (List.mem_cons_of_mem _ hx)) ?_
      rw [assign, validate_keeps _ _ _ hn, store_keeps _ _ _ (ho t List.mem_cons_self)]
      exact h
  refine ⟨?_, key after a ho⟩
  induction before generalizing a with
  | nil =>
    rw [List.nil_append, assignAll_cons]
    refine key after _ ho ?_
    rw [assign, validate_keeps _ _ _ hn]
    exact store_reads a s
  | cons t before ih => rw [List.cons_append, assignAll_cons]; exact ih _

/-- Non-vacuity: the last of two values of the same argument, with another assignment in between and after. -/
example : Reads (assignAll 1 { dataset := [{}] } ([.aggregate true, .snippet true] ++ .aggregate false :: [.fileOnly true])).1
    (.aggregate false) :=
  (C71_last_value 1 { dataset := [{}] } [.aggregate true, .snippet true] [.fileOnly true] (.aggregate false)
    (by decide) (by decide)).1

/-- Without data on a rotated pole the output coordinate system, too, is the one given last.  Missing: rotated pole data, where
validation overwrites it. -/
theorem C71_output_crs_partial (ranks : Nat) (a : Args) (before after : List Assign) (v : Option Crs)
    (ha : ¬ OnRotatedPole a) (hs : ∀ s ∈ before ++ after, NoRotated s)
    (ho : ∀ t ∈ after, argument t ≠ "output_crs") :
    (assignAll ranks a (before ++ .outputCrs v :: after)).1.outputCrs = v := by
  rw [assignAll_fold ranks _ a ha]
  · rw [List.foldl_append, List.foldl_cons]
    have key : ∀ (after : List Assign) (b : Args), (∀ t ∈ after, argument t ≠ "output_crs") → b.outputCrs = v →
        (after.foldl store b).outputCrs = v := by
      intro after
      induction after with
      | nil => intro b _ h; exact h
      | cons t after ih =>
        intro b ho h
        exact ih _ (fun x hx => ho x (List.mem_cons_of_mem _ hx))
          ((store_keeps b t (.outputCrs v) (ho t List.mem_cons_self)).2 h)
    exact key after _ ho rfl
  · intro s h
    simp only [List.mem_append, List.mem_cons] at h hs
    rcases h with h | rfl | h
    · exact hs s (Or.inl h)
    · trivial
    · exact hs s (Or.inr h)

example : (assignAll 1 { dataset := [{}] } ([.snippet true] ++ .outputCrs (some .wgs84) :: [.clip true])).1.outputCrs =
    some .wgs84 :=
  C71_output_crs_partial 1 { dataset := [{}] } [.snippet true] [.clip true] (some .wgs84)
    (by rintro ⟨d, hd, n, h⟩; simp at hd; rw [hd] at h; cases h)
    (by intro s hs; simp at hs; rcases hs with rfl | rfl <;> trivial) (by decide)

/-- The order in which different arguments are given does not matter, neither in the constructor nor in assignments, and
assigning arguments one after the other leads to the object the constructor makes when it is given all of them at once; the
verdict of the last assignment is the constructor's.  Missing: data on a rotated pole. -/
theorem C71_order_partial (ranks : Nat) (ds : List Dataset) (ss tt : List Assign) (hp : ss.Perm tt)
    (hd : (ss.map argument).Nodup) (hds : NoRotated (.dataset ds)) (hs : ∀ s ∈ ss, NoRotated s) :
    construct ranks ds ss = construct ranks ds tt ∧
    (assignAll ranks { dataset := ds } tt).1 = (construct ranks ds ss).1 ∧
    (ss ≠ [] → (assignAll ranks { dataset := ds } tt).2.getLast? = some (construct ranks ds ss).2) := by
  have hr : ¬ OnRotatedPole ({ dataset := ds } : Args) := by
    rintro ⟨d, hd, n, h⟩
    exact hds d hd n h
  have ht : ∀ s ∈ tt, NoRotated s := fun s h => hs s (hp.mem_iff.2 h)
  have hnr : ∀ (l : List Assign) (a : Args), ¬ OnRotatedPole a → (∀ s ∈ l, NoRotated s) →
      ¬ OnRotatedPole (l.foldl store a) := by
    intro l
    induction l with
    | nil => intro a h _; exact h
    | cons x l ih =>
      intro a h hl
      exact ih _ (not_rotated_store a x h (hl x List.mem_cons_self)) (fun s hs => hl s (List.mem_cons_of_mem _ hs))
  have hc : (construct ranks ds ss).1 = tt.foldl store { dataset := ds } := by
    unfold construct
    rw [fold_perm ss tt hp hd]
    rcases validate_fst ranks (tt.foldl store { dataset := ds }) with h | ⟨h, -⟩
    · exact h
    · exact absurd h (hnr tt _ hr ht)
  refine ⟨by unfold construct; rw [fold_perm ss tt hp hd], ?_, ?_⟩
  · rw [assignAll_fold ranks tt _ hr ht, hc]
  · intro hne
    have hne' : tt ≠ [] := fun h => hne (by rw [h] at hp; exact hp.eq_nil)
    obtain ⟨l, x, hl⟩ : ∃ l x, tt = l ++ [x] := ⟨_, _, (List.dropLast_concat_getLast hne').symm⟩
    have h1 : (assignAll ranks { dataset := ds } l).1 = l.foldl store { dataset := ds } :=
      assignAll_fold ranks l _ hr (fun s h => ht s (by rw [hl]; simp [h]))
    have h2 : (assignAll ranks { dataset := ds } tt).2 =
        (assignAll ranks { dataset := ds } l).2 ++ [(assign ranks (assignAll ranks { dataset := ds } l).1 x).2] := by
      rw [hl]; unfold assignAll; rw [List.foldl_append]; rfl
    rw [h2, h1]
    unfold construct
    rw [fold_perm ss tt hp hd, hl, List.foldl_append]
    simp [assign]

example : construct 1 [{ crs := some .wgs84 }] [.format .nc, .aggregate true, .geom (some 2)] =
    construct 1 [{ crs := some .wgs84 }] [.geom (some 2), .aggregate true, .format .nc] ∧
    (construct 1 [{ crs := some .wgs84 }] [.format .nc, .aggregate true, .geom (some 2)]).2 = none :=
  ⟨(C71_order_partial 1 [{ crs := some .wgs84 }] [.format .nc, .aggregate true, .geom (some 2)]
    [.geom (some 2), .aggregate true, .format .nc]
    (List.reverse_perm [Assign.geom (some 2), .aggregate true, .format .nc]) (by decide)
    (by intro d hd n; simp at hd; rw [hd]; simp)
    (by intro s hs; simp at hs; rcases hs with rfl | rfl | rfl <;> trivial)).1, by decide⟩

/-- False in general: a refused assignment does not leave the object as it was.  The value stays, and with it a combination
that breaks the rules; `execute` does not validate again. -/
theorem C71_refused_kept_counterexample :
    ¬ (∀ (ranks : Nat) (a : Args) (s : Assign), Reachable ranks a → (assign ranks a s).2 ≠ none → (assign ranks a s).1 = a) ∧
    (∀ (ranks : Nat) (a : Args) (s : Assign), Reachable ranks a → Simple (assign ranks a s).1 →
      argument s ≠ "output_crs" → (assign ranks a s).2 ≠ none →
      Reads (assign ranks a s).1 s ∧ ¬ Valid ranks (assign ranks a s).1) := by
  constructor
  · intro h
    have := h 1 (construct 1 [{}] [.format .nc]).1 (.clip true) (.construct _ _ (by decide)) (by decide)
    exact absurd this (by decide)
  · intro ranks a s ha hs hn he
    refine ⟨?_, fun hv => he ((C71_assign_partial ranks a ha s hs).2 hv)⟩
    rw [assign, validate_keeps _ _ _ hn]
    exact store_reads a s

/-- False in general: with data on a rotated pole, switching aggregation on and off again leaves the output coordinate system
changed, so the result is not that of operations built without it. -/
theorem C71_sticky_crs_counterexample :
    let ds : List Dataset := [{ crs := some (.rotatedPole 1) }]
    (construct 1 ds []).2 = none ∧ (construct 1 ds []).1.outputCrs = none ∧
    (assignAll 1 (construct 1 ds []).1 [.aggregate true, .aggregate false]).2 = [none, none] ∧
    (assignAll 1 (construct 1 ds []).1 [.aggregate true, .aggregate false]).1.outputCrs = some .spherical := by
  decide

/-- False in general: whether calculations are checked against `calc_grouping` depends on their order.  A mean without a
grouping is refused, as documented, unless an expression follows it; an expression with a grouping is refused unless a
function follows it. -/
theorem C71_mixed_calculations_counterexample :
    let mean : Calc := ⟨"mean", .set, []⟩
    let expr : Calc := ⟨"x=tas+1", .eval, []⟩
    (construct 1 [{}] [.calcs (some [expr, mean])]).2 = some .definitionValidation ∧
    (construct 1 [{}] [.calcs (some [mean, expr])]).2 = none ∧
    (construct 1 [{}] [.calcs (some [mean, expr]), .grouping (some ["month"])]).2 = some .definitionValidation ∧
    (construct 1 [{}] [.calcs (some [expr, mean]), .grouping (some ["month"])]).2 = none := by
  decide

/-- False in general: of two uses of a multivariate function only the first is checked for its variables. -/
theorem C71_second_use_counterexample :
    let good : Calc := ⟨"divide", .multi ["arr1", "arr2"], [("arr1", "tas"), ("arr2", "rhs")]⟩
    let bad : Calc := ⟨"divide", .multi ["arr1", "arr2"], [("arr1", "tas"), ("arr2", "nowhere")]⟩
    (construct 1 [{ names := ["tas", "rhs"] }] [.calcs (some [bad])]).2 = some .definitionValidation ∧
    (construct 1 [{ names := ["tas", "rhs"] }] [.calcs (some [good, bad])]).2 = none := by
  decide

/-- False in general: a multivariate function over several datasets may be written to netCDF but not to GeoJSON, although the
GeoJSON rule makes the same exception: the classes are compared, not tested for inheritance. -/
theorem C71_geojson_multivariate_counterexample :
    let ds : List Dataset := [{ crs := some .wgs84, names := ["tas"] }, { crs := some .wgs84, names := ["rhs"] }]
    let c : Calc := ⟨"heat_index", .multi ["tas", "rhs"], [("tas", "tas"), ("rhs", "rhs")]⟩
    (construct 1 ds [.format .nc, .calcs (some [c])]).2 = none ∧
    (construct 1 ds [.format .geojson, .calcs (some [c])]).2 = some .definitionValidation := by
  decide

/-- False in general: not every refusal is a validation error.  A slice with a geometry is an assertion error, a duration
without a grouping a type error, and a multivariate function lacking one of three variables a key error. -/
theorem C71_error_kind_counterexample :
    (construct 1 [{}] [.slice true, .geom (some 1)]).2 = some .assertionError ∧
    (construct 1 [{}] [.calcs (some [⟨"duration", .duration false, []⟩])]).2 = some .typeError ∧
    (construct 1 [{ names := ["a", "b"] }]
      [.calcs (some [⟨"f", .multi ["x", "y", "z"], [("x", "a"), ("y", "b")]⟩])]).2 = some .keyError := by
  decide

/-- Assigning to an argument whose own check does not fail with an attribute error: if the value is accepted, reading gives the
parsed value; if it is refused, the exception is raised and everything is as before; other attributes are untouched.  Missing:
attribute errors and names that are not arguments. -/
theorem C71_bad_value_partial {R V : Type} (parse : String → R → Res V) (o : Attrs R V) (name : String) (r : R) (old : V)
    (hp : getAttr o name = .ok (.parameter old)) (he : parse name r ≠ .error .attributeError) :
    (∀ v, parse name r = .ok v → (setAttr parse o name r).2 = none ∧
      getAttr (setAttr parse o name r).1 name = .ok (.parameter v)) ∧
    (∀ e, parse name r = .error e → (setAttr parse o name r) = (o, some e)) ∧
    (∀ x, x ≠ name → getAttr (setAttr parse o name r).1 x = getAttr o x) := by
  unfold getAttr at hp
  have hl : o.lookup name = some (.parameter old) := by
    cases h : o.lookup name with
    | none => rw [h] at hp; cases hp
    | some s => rw [h] at hp; injection hp with hp; rw [hp]
  unfold setAttr
  rw [hl]
  refine ⟨?_, ?_, ?_⟩
  · intro v hv
    simp only [hv]
    refine ⟨trivial, ?_⟩
    rw [getAttr, lookup_put, if_pos rfl]
  · intro e hv
    simp only [hv]
    rw [if_neg]
    intro h
    exact he (by rw [hv, h])
  · intro x hx
    cases hv : parse name r with
    | ok v => simp only [getAttr]; rw [lookup_put, if_neg hx]
    | error e =>
      have hne : e ≠ .attributeError := fun h => he (by rw [hv, h])
      simp only [if_neg hne]

example : getAttr (setAttr (fun _ (r : Nat) => if r < 5 then .ok r else .error .definitionValidation)
    [("a", Slot.parameter 1), ("b", Slot.parameter 2)] "a" 7).1 "a" = .ok (.parameter 1) := by decide

/-- False in general: assigning `None` to the regridding options, which are nullable, is not refused but removes the argument's
checks: from then on any option is accepted.  A misspelt argument name is accepted as well. -/
theorem C71_attribute_error_counterexample :
    let parse : String → RegridRaw → Res (List (String × String)) := fun _ => regridParse
    let o : Attrs RegridRaw (List (String × String)) := [("regrid_options", .parameter [("regrid_method", "auto")])]
    (setAttr parse o "regrid_options" (some [("method", "x")])).2 = some .definitionValidation ∧
    (let o' := (setAttr parse o "regrid_options" none).1
     (setAttr parse o "regrid_options" none).2 = none ∧
     (setAttr parse o' "regrid_options" (some [("method", "x")])).2 = none ∧
     getAttr (setAttr parse o' "regrid_options" (some [("method", "x")])).1 "regrid_options" =
       .ok (.raw (some [("method", "x")]))) ∧
    (setAttr parse o "regrid_optoins" (some [("method", "x")])).2 = none := by
  decide

/-- False in general: what the constructor takes, an assignment need not take.  The old names of two output formats and slices
by dimension name are accepted by the constructor only. -/
theorem C71_constructor_only_counterexample :
    formatInit "numpy" = .ok "ocgis" ∧ formatSet "numpy" = .error .definitionValidation ∧
    formatInit "csv+" = .ok "csv-shp" ∧ formatSet "csv+" = .error .definitionValidation ∧
    sliceInit (.dict [("time", 0, 5)]) = .ok [("time", 0, 5)] ∧
    sliceSet (.dict [("time", 0, 5)]) = .error .definitionValidation := by
  decide

/-- What both take, they take alike.  Missing: the old format names and dictionary slices. -/
theorem C71_constructor_alike_partial (s : String) (v : String) (l : List (Nat × Nat)) :
    (formatSet s = .ok v → formatInit s = .ok v ∧ v = s ∧ s ∈ formatNames) ∧
    sliceInit (.list l) = sliceSet (.list l) := by
  refine ⟨?_, rfl⟩
  intro h
  unfold formatSet at h
  split at h
  · rename_i hc
    injection h with h
    subst h
    have hm : s ∈ formatNames := by simpa using hc
    refine ⟨?_, rfl, hm⟩
    have h1 : s ≠ "csv+" := by rintro rfl; exact absurd hm (by decide)
    have h2 : s ≠ "numpy" := by rintro rfl; exact absurd hm (by decide)
    rw [formatInit, if_neg h1, if_neg h2, formatSet, if_pos hc]
  · cases h

/-- A refusal is a validation error, except for a slice together with a geometry, a duration without a grouping and a multivariate
function that is given two or more of its variables but not all. -/
theorem C71_error_kind_partial (ranks : Nat) (ds : List Dataset) (kwargs : List Assign) (e : PyErr)
    (h : (construct ranks ds kwargs).2 = some e) (he : e ≠ .definitionValidation) :
    let a := (construct ranks ds kwargs).1
    (a.slice = true ∧ a.geom ≠ none)
    ∨ ∃ cs, a.calcs = some cs ∧ ∃ c ∈ cs,
      ((∃ k, c.kind = .duration k) ∧ a.grouping = none)
      ∨ ∃ req, c.kind = .multi req ∧ ∃ x ∈ cs, x.func = c.func ∧ 2 ≤ (req.filter fun r => r ∈ x.kwds.map Prod.fst).length
          ∧ ∃ r ∈ req, r ∉ x.kwds.map Prod.fst := by
  unfold construct at h ⊢
  exact errorKind ranks _ e h he

example : (construct 1 [{}] [.slice true, .geom (some 1)]).2 = some .assertionError := by decide

/-- Regridding options given as a dictionary are accepted exactly if all names are known; those given keep their values and the
method and the mask have a default. -/
theorem C71_regrid_options (d : List (String × String)) :
    ((∃ v, regridParse (some d) = .ok v) ↔ ∀ p ∈ d, p.1 = "regrid_method" ∨ p.1 = "value_mask" ∨ p.1 = "split")
    ∧ ∀ v, regridParse (some d) = .ok v →
      (∀ k x, d.lookup k = some x → v.lookup k = some x)
      ∧ (d.lookup "regrid_method" = none → v.lookup "regrid_method" = some "auto")
      ∧ (d.lookup "value_mask" = none → v.lookup "value_mask" = some "None")
      ∧ (d.lookup "split" = none → v.lookup "split" = none) := by
  unfold regridParse
  simp only
  by_cases hu : (d.any fun p => !["regrid_method", "value_mask", "split"].contains p.1) = true
  · rw [if_pos hu]
    refine ⟨⟨?_, ?_⟩, ?_⟩
    · rintro ⟨v, h⟩; cases h
    · intro h
      obtain ⟨p, hp, hn⟩ := List.any_eq_true.1 hu
      have := h p hp
      simp at hn
      grind
    · intro v h; cases h
  · rw [if_neg hu]
    refine ⟨⟨fun _ p hp => ?_, fun _ => ⟨_, rfl⟩⟩, ?_⟩
    · have hp' : ¬ (!["regrid_method", "value_mask", "split"].contains p.1) = true :=
        fun h => hu (List.any_eq_true.2 ⟨p, hp, h⟩)
      simp at hp'
      grind
    · intro v h
      injection h with h
      subst h
      have la : ∀ (d : List (String × String)) k k' x', (d ++ [(k', x')]).lookup k =
          match d.lookup k with
          | some x => some x
          | none => if k = k' then some x' else none := by
        intro d k k' x'
        induction d with
        | nil => by_cases h : k = k' <;> simp [List.lookup, h]
        | cons q d ih =>
          obtain ⟨a, b⟩ := q
          by_cases h : k = a
          · simp [List.lookup, h]
          · have hb : (k == a) = false := by simpa using h
            simp only [List.cons_append, List.lookup, hb, ih]
      refine ⟨?_, ?_, ?_, ?_⟩
      · intro k x hk
        repeat' split
        all_goals simp only [la, hk]
      · intro hk
        simp only [hk, Option.isNone_none, if_true]
        split <;> simp only [la, hk] <;> rfl
      · intro hk
        have : ((if (d.lookup "regrid_method").isNone = true then d ++ [("regrid_method", "auto")] else d).lookup "value_mask")
            = none := by
          split <;> simp [la, hk]
        rw [this]
        simp [la, this]
      · intro hk
        repeat' split
        all_goals first | (simp only [la, hk]; rfl) | simp only [la, hk]

example : regridParse (some [("split", "False")]) = .ok [("split", "False"), ("regrid_method", "auto"), ("value_mask", "None")] := by
  decide

/-- A slice given as a list must have an entry for each of the five dimensions, which are the realization, time, level, row and
column in this order. -/
theorem C71_slice_list (l : List (Nat × Nat)) :
    (∀ v, sliceSet (.list l) = .ok v ↔ ∃ r t z y x, l = [r, t, z, y, x]
      ∧ v = [("realization", r), ("time", t), ("level", z), ("y", y), ("x", x)])
    ∧ ∀ e, sliceSet (.list l) = .error e → e = .definitionValidation := by
  unfold sliceSet
  simp only
  split
  · rename_i hl
    match l, hl with
    | [r, t, z, y, x], _ =>
      refine ⟨fun v => ⟨fun h => ?_, ?_⟩, fun e h => by cases h⟩
      · injection h with h
        exact ⟨r, t, z, y, x, rfl, h.symm⟩
      · rintro ⟨_, _, _, _, _, h, rfl⟩
        injection h with h1 h
        injection h with h2 h
        injection h with h3 h
        injection h with h4 h
        injection h with h5 _
        subst h1 h2 h3 h4 h5
        rfl
  · rename_i hl
    refine ⟨fun v => ⟨fun h => (by cases h), ?_⟩, fun e h => by cases h; rfl⟩
    rintro ⟨_, _, _, _, _, rfl, _⟩
    exact absurd rfl hl

end Ocgis.Props
