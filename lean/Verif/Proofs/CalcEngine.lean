import Verif.Spec.CalcEngine
/-!
# Lemmas
-/
namespace Ocgis.Props
open Ocgis Ocgis.CalcEngine Ocgis.Spec

/-- Adding several outputs one after the other. -/
def addList {γ : Type} : Outs γ → List (String × Origin γ) → Res (Outs γ)
  | vc, [] => .ok vc
  | vc, (n, o) :: l =>
    match add vc n o with
    | .error e => .error e
    | .ok vc => addList vc l

theorem addList_append {γ : Type} (vc : Outs γ) (a b : List (String × Origin γ)) :
    addList vc (a ++ b) = match addList vc a with
      | .error e => .error e
      | .ok vc => addList vc b := by
  induction a generalizing vc with
  | nil => rfl
  | cons x a ih =>
    obtain ⟨n, o⟩ := x
    simp only [List.cons_append, addList]
    cases add vc n o with
    | error e => rfl
    | ok vc => exact ih vc

theorem addList_eq {γ : Type} (vc : Outs γ) (l : List (String × Origin γ)) (h : (vc.map Prod.fst).Nodup) :
    addList vc l = if ((vc ++ l).map Prod.fst).Nodup then .ok (vc ++ l) else .error .variableInCollection := by
  induction l generalizing vc with
  | nil => simp [addList, h]
  | cons x l ih =>
    obtain ⟨n, o⟩ := x
    unfold addList add
    by_cases hn : n ∈ vc.map Prod.fst
    · have hc : (vc.map Prod.fst).contains n = true := by simpa using hn
      rw [if_pos hc, if_neg]
      intro hd
      rw [List.map_append, List.nodup_append] at hd
      exact hd.2.2 n hn n (by simp) rfl
    · have hc : ¬ (vc.map Prod.fst).contains n = true := by simpa using hn
      rw [if_neg hc]
      dsimp only
      rw [ih (vc ++ [(n, o)])]
      · simp
      · rw [List.map_append, List.nodup_append]
        refine ⟨h, by simp, ?_⟩
        intro a ha b hb
        simp at hb
        subst hb
        rintro rfl
        exact hn ha

theorem outName_eq {alias : String} {data : List String} (h : data ≠ []) (v : String) :
    outName alias data v = resultName alias data v := by
  unfold outName resultName
  match data, h with
  | [_], _ => simp
  | a :: b :: l, _ => simp

/-- The outputs for some of the targets. -/
def partResults {γ : Type} (f : Func) (all : List String) (grouping : Option γ) (sample : Bool) (vs : List String) :
    List (String × Origin γ) :=
  vs.flatMap fun v =>
    (outName f.alias all v, ⟨f.func, [v], grouping, false⟩) ::
      if sample then [("n_" ++ outName f.alias all v, ⟨f.func, [v], grouping, true⟩)] else []

theorem addAll_eq {γ : Type} (f : Func) (all : List String) (tgd : Option γ) (sample : Bool) (vs : List String) (vc : Outs γ) :
    addAll f all tgd sample vc vs = addList vc (partResults f all tgd sample vs) := by
  induction vs generalizing vc with
  | nil => rfl
  | cons v vs ih =>
    unfold addAll partResults
    rw [List.flatMap_cons, addList_append]
    have : addList vc ((outName f.alias all v, ⟨f.func, [v], tgd, false⟩) ::
        if sample then [("n_" ++ outName f.alias all v, ⟨f.func, [v], tgd, true⟩)] else []) =
        addBoth vc (outName f.alias all v) ⟨f.func, [v], tgd, false⟩ sample := by
      unfold addBoth
      simp only [addList]
      cases add vc (outName f.alias all v) ⟨f.func, [v], tgd, false⟩ with
      | error e => rfl
      | ok vc =>
        dsimp only
        cases sample with
        | false => rfl
        | true =>
          simp only [if_true, addList]
          cases add vc ("n_" ++ outName f.alias all v) ⟨f.func, [v], tgd, true⟩ <;> rfl
    rw [this]
    cases addBoth vc (outName f.alias all v) ⟨f.func, [v], tgd, false⟩ sample with
    | error e => rfl
    | ok vc => exact ih vc

theorem runFunc_eq {τ γ : Type} {c : Config τ γ} {field : Field τ γ} {f : Func} (hd : field.data ≠ []) (hf : Ordinary f)
    (hm : ∀ names, f.kind = .multivariate names → names ≠ [] ∧ c.sampleSize = false ∧ ∀ n ∈ names, n ∈ field.data ∨ n ∈ field.others)
    (tgd : Option γ) (vc : Outs γ) :
    runFunc c field f tgd vc = (addList vc (results field.data tgd c.sampleSize f)).map (·, tgd) := by
  rcases hf with h | ⟨names, h⟩
  · unfold runFunc results
    rw [h]
    dsimp only
    rw [if_neg hd, addAll_eq]
    congr 2
    unfold partResults
    congr 1
    funext v
    rw [outName_eq hd]
    congr 1
    cases c.sampleSize <;> cases tgd <;> simp
  · obtain ⟨h1, h2, h3⟩ := hm names h
    unfold runFunc results
    rw [h]
    dsimp only
    have hall : names.all (field.data ++ field.others).contains = true := by
      rw [List.all_eq_true]
      intro n hn
      simpa using h3 n hn
    rw [h2, if_neg (by simp), if_neg h1, if_pos hall]
    unfold addList
    cases add vc f.alias ⟨f.func, names, tgd, false⟩ <;> rfl

theorem runFuncs_eq {τ γ : Type} {c : Config τ γ} {field : Field τ γ} (hd : field.data ≠ []) {fs : List Func}
    (hf : ∀ f ∈ fs, Ordinary f ∧
      ∀ names, f.kind = .multivariate names → names ≠ [] ∧ c.sampleSize = false ∧ ∀ n ∈ names, n ∈ field.data ∨ n ∈ field.others)
    (tgd : Option γ) (vc : Outs γ) :
    runFuncs c field fs tgd vc = (addList vc (fs.flatMap (results field.data tgd c.sampleSize))).map (·, tgd) := by
  induction fs generalizing vc with
  | nil => rfl
  | cons f fs ih =>
    obtain ⟨h1, h2⟩ := hf f (by simp)
    unfold runFuncs
    rw [runFunc_eq hd h1 h2, List.flatMap_cons, addList_append]
    cases addList vc (results field.data tgd c.sampleSize f) with
    | error e => rfl
    | ok vc => exact ih (fun f h => hf f (by simp [h])) vc

/-- A field whose grouping is the one of its own times. -/
theorem executeField_eq {τ γ : Type} {c : Config τ γ} {field : Field τ γ} (ha : Applicable c field) {tgd : Option γ}
    (ht : tgd = c.grouping.map (· field.times)) :
    (NamesDiffer c field → executeField c field tgd = .ok (finished c field)) ∧
    (¬ NamesDiffer c field → executeField c field tgd = .error .variableInCollection) := by
  subst ht
  obtain ⟨h1, h2, h3⟩ := ha
  unfold executeField
  rw [if_neg h1, runFuncs_eq h2 h3, addList_eq _ _ (by simp)]
  simp only [List.nil_append]
  constructor
  · rintro ⟨hn, ho⟩
    rw [if_pos (show (List.map Prod.fst (List.flatMap _ c.funcs)).Nodup from hn)]
    simp only [Except.map, install]
    rw [if_neg]
    · rfl
    · intro h
      rw [List.any_eq_true] at h
      obtain ⟨o, ho', hc⟩ := h
      exact ho o.1 (List.mem_map.mpr ⟨o, ho', rfl⟩) (by simpa using hc)
  · intro hnd
    by_cases hn : ((allResults c field).map Prod.fst).Nodup
    · rw [if_pos (show (List.map Prod.fst (List.flatMap _ c.funcs)).Nodup from hn)]
      simp only [Except.map, install]
      rw [if_pos]
      rw [List.any_eq_true]
      apply Classical.byContradiction
      intro h
      refine hnd ⟨hn, ?_⟩
      intro n hmem hno
      obtain ⟨o, ho, rfl⟩ := List.mem_map.mp hmem
      exact h ⟨o, ho, by simpa using hno⟩
    · rw [if_neg (show ¬ (List.map Prod.fst (List.flatMap _ c.funcs)).Nodup from hn)]
      rfl

theorem lookup_append {γ : Type} (l : Cache γ) (k : String) (x : String × γ) :
    (l ++ [x]).lookup k = if (l.lookup k).isSome then l.lookup k else if k = x.1 then some x.2 else none := by
  induction l with
  | nil =>
    obtain ⟨n, g⟩ := x
    by_cases h : k = n
    · subst h; simp [List.lookup]
    · have : (k == n) = false := by simpa using h
      simp [List.lookup, this, h]
  | cons y l ih =>
    obtain ⟨n, g⟩ := y
    rw [List.cons_append, List.lookup_cons, List.lookup_cons]
    by_cases h : k = n
    · subst h; simp
    · have : (k == n) = false := by simpa using h
      rw [this]
      exact ih

/-- Every cached grouping of a field's name is that of the field's times. -/
def Right {τ γ : Type} (group : τ → γ) (fields : List (Field τ γ)) (cache : Cache γ) : Prop :=
  ∀ f ∈ fields, ∀ g, cache.lookup f.name = some g → g = group f.times

/-- One step of `remember`. -/
def noteOne {τ γ : Type} (group : τ → γ) (cache : Cache γ) (f : Field τ γ) : Cache γ :=
  if (cache.lookup f.name).isSome then cache else cache ++ [(f.name, group f.times)]

theorem noteOne_right {τ γ : Type} {group : τ → γ} {fields : List (Field τ γ)} (hs : SameTimes fields) {cache : Cache γ}
    (h : Right group fields cache) {f : Field τ γ} (hf : f ∈ fields) :
    Right group fields (noteOne group cache f) ∧ ((noteOne group cache f).lookup f.name).isSome ∧
      ∀ n, (cache.lookup n).isSome → ((noteOne group cache f).lookup n).isSome := by
  unfold noteOne
  split
  · next hl => exact ⟨h, hl, fun _ h => h⟩
  · next hl =>
    refine ⟨?_, ?_, ?_⟩
    · intro a ha g hg
      rw [lookup_append] at hg
      split at hg
      · exact h a ha g hg
      · split at hg
        · next hn =>
          rw [hs a ha f hf hn]
          exact (Option.some.inj hg).symm
        · cases hg
    · rw [lookup_append, if_neg hl]
      simp
    · intro n hn
      rw [lookup_append, if_pos hn]
      exact hn

theorem remember_right {τ γ : Type} {group : τ → γ} {fields : List (Field τ γ)} (hs : SameTimes fields)
    {part : List (Field τ γ)} : ∀ {cache : Cache γ}, Right group fields cache → (∀ f ∈ part, f ∈ fields) →
    Right group fields (part.foldl (noteOne group) cache) ∧
      (∀ f ∈ part, ((part.foldl (noteOne group) cache).lookup f.name).isSome) ∧
      ∀ n, (cache.lookup n).isSome → ((part.foldl (noteOne group) cache).lookup n).isSome := by
  induction part with
  | nil => intro cache h _; exact ⟨h, by simp, fun _ h => h⟩
  | cons f part ih =>
    intro cache h hp
    obtain ⟨h1, h2, h3⟩ := noteOne_right hs h (hp f (by simp))
    obtain ⟨h4, h5, h6⟩ := ih h1 (fun f hf => hp f (by simp [hf]))
    refine ⟨h4, ?_, fun n hn => h6 n (h3 n hn)⟩
    intro a ha
    rcases List.mem_cons.mp ha with rfl | ha
    · exact h6 _ h2
    · exact h5 a ha

/-- The grouping found for a field is that of its own times. -/
def Found {τ γ : Type} (c : Config τ γ) (cache : Cache γ) (f : Field τ γ) : Prop :=
  cache.lookup f.name = c.grouping.map (· f.times)

theorem executeFields_eq {τ γ : Type} {c : Config τ γ} {cache : Cache γ} {fields : List (Field τ γ)}
    (h : ∀ f ∈ fields, Applicable c f ∧ NamesDiffer c f ∧ Found c cache f) :
    executeFields c cache fields = .ok (fields.map (finished c)) := by
  induction fields with
  | nil => rfl
  | cons f fs ih =>
    obtain ⟨h1, h2, h3⟩ := h f (by simp)
    unfold executeFields
    rw [(executeField_eq h1 h3).1 h2, ih (fun f hf => h f (by simp [hf]))]
    rfl

/-- What is true of the cache throughout. -/
def CacheOk {τ γ : Type} (c : Config τ γ) (fields : List (Field τ γ)) (cache : Cache γ) : Prop :=
  match c.grouping with
  | none => cache = []
  | some group => Right group fields cache

theorem remember_ok {τ γ : Type} {c : Config τ γ} {fields : List (Field τ γ)} (hs : SameTimes fields) {cache : Cache γ}
    (h : CacheOk c fields cache) {part : List (Field τ γ)} (hp : ∀ f ∈ part, f ∈ fields) :
    CacheOk c fields (remember c cache part) ∧ ∀ f ∈ part, Found c (remember c cache part) f := by
  unfold CacheOk remember Found at *
  cases hg : c.grouping with
  | none =>
    rw [hg] at h
    dsimp only at h ⊢
    subst h
    exact ⟨rfl, fun f _ => rfl⟩
  | some group =>
    rw [hg] at h
    dsimp only at h ⊢
    obtain ⟨h1, h2, -⟩ := remember_right hs h hp
    refine ⟨h1, ?_⟩
    intro f hf
    have hi := h2 f hf
    rw [Option.isSome_iff_exists] at hi
    obtain ⟨g, hgl⟩ := hi
    have := h1 f (hp f hf) g hgl
    subst this
    exact hgl

theorem executeAll_eq {τ γ : Type} {c : Config τ γ} {fields : List (Field τ γ)} (hs : SameTimes fields)
    {colls : List (List (Field τ γ))} : ∀ {cache : Cache γ}, CacheOk c fields cache →
    (∀ coll ∈ colls, ∀ f ∈ coll, f ∈ fields ∧ Applicable c f ∧ NamesDiffer c f) →
    executeAll c cache colls = .ok (colls.map (List.map (finished c))) := by
  induction colls with
  | nil => intros; rfl
  | cons coll colls ih =>
    intro cache hc h
    obtain ⟨h1, h2⟩ := remember_ok hs hc (part := coll) (fun f hf => (h coll (by simp) f hf).1)
    unfold executeAll execute
    rw [executeFields_eq (fun f hf => ⟨(h coll (by simp) f hf).2.1, (h coll (by simp) f hf).2.2, h2 f hf⟩)]
    dsimp only
    rw [ih h1 (fun coll hcoll f hf => h coll (by simp [hcoll]) f hf)]
    rfl

theorem weather_ok (times : List Nat) : Applicable byYear (weather times) ∧ NamesDiffer byYear (weather times) := by
  refine ⟨⟨by decide, by simp [weather], ?_⟩, ?_⟩
  · intro f hf
    simp [byYear] at hf
    rcases hf with rfl | rfl
    · exact ⟨Or.inl rfl, by intro names h; cases h⟩
    · refine ⟨Or.inr ⟨_, rfl⟩, ?_⟩
      intro names h
      cases h
      exact ⟨by decide, rfl, by simp [weather]⟩
  · unfold NamesDiffer
    have : (allResults byYear (weather times)).map Prod.fst = ["average_tas", "average_rhs", "heat"] := by
      simp [allResults, byYear, results, weather, resultName]
    rw [this]
    exact ⟨by decide, by simp [weather]⟩

end Ocgis.Props
