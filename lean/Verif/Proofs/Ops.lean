import Verif.Spec.Ops
/-!
# Lemmas
-/
namespace Ocgis.Props
open Ocgis Ocgis.Ops Ocgis.Spec.Ops

theorem refuse_none (b : Bool) : refuse b = none ↔ b = false := by
  cases b <;> simp [refuse]

theorem firstError_none (l : List (Option PyErr)) : firstError l = none ↔ ∀ x ∈ l, x = none := by
  induction l with
  | nil => simp [firstError]
  | cons x l ih => cases x <;> simp [firstError, ih]

theorem driverCheck_none (f : Fmt) (d : Dataset) :
    driverCheck f d = none ↔ (d.isField = false → ∀ l, d.formats = some l → f ∈ l) := by
  unfold driverCheck
  cases h : d.isField
  · cases h' : d.formats <;> simp [refuse_none]
  · simp

theorem multiCount_one (cs : List Calc) : multiCount cs = 1 ↔ OneMultivariate cs := by
  have key : ∀ cs : List Calc, multiCount cs = 0 ↔ ∀ x ∈ cs, ¬ Multivariate x := by
    intro cs
    induction cs with
    | nil => simp [multiCount]
    | cons c cs ih =>
      rw [List.forall_mem_cons, ← ih]
      unfold multiCount Multivariate
      cases h : c.kind <;> simp [h, Kind.isMulti]
  induction cs with
  | nil => simp [multiCount, OneMultivariate]
  | cons c cs ih =>
    by_cases hc : Multivariate c
    · have h1 : multiCount (c :: cs) = multiCount cs + 1 := by
        rcases hc with h | ⟨r, h⟩ <;> simp [multiCount, h, Kind.isMulti] <;> omega
      rw [h1]
      constructor
      · intro h
        exact ⟨[], c, cs, rfl, hc, by simpa using (key cs).1 (by omega)⟩
      · rintro ⟨b, x, e, h, hx, hn⟩
        have : multiCount cs = 0 := by
          rw [key]
          cases b with
          | nil => simp at h hn; rw [h.2]; exact hn
          | cons y b =>
            simp at h hn
            exact absurd (h.1 ▸ hc) hn.1
        omega
    · have h1 : multiCount (c :: cs) = multiCount cs := by
        cases h : c.kind <;> simp [Multivariate, h] at hc <;> simp [multiCount, h, Kind.isMulti]
      rw [h1]
      refine ih.trans ?_
      constructor
      · rintro ⟨b, x, e, h, hx, hn⟩
        refine ⟨c :: b, x, e, by simp [h], hx, ?_⟩
        simp at hn ⊢
        exact ⟨hc, hn⟩
      · rintro ⟨b, x, e, h, hx, hn⟩
        cases b with
        | nil => simp at h; exact absurd (h.1 ▸ hx) hc
        | cons y b =>
          simp at h hn
          exact ⟨b, x, e, h.2, hx, by simpa using hn.2⟩

theorem ncCheck_none (a : Args) : ncCheck a = none ↔ NetcdfRules a := by
  unfold ncCheck
  rw [firstError_none]
  simp only [List.mem_cons, forall_eq_or_imp, List.not_mem_nil, false_imp_iff, implies_true, and_true, refuse_none]
  constructor
  · rintro ⟨h1, h2, h3, h4, h5⟩
    refine ⟨?_, ?_, ?_, ?_, ?_, ?_⟩
    · intro h
      cases hc : a.calcs with
      | none => simp [hc] at h1; omega
      | some cs =>
        refine ⟨cs, rfl, (multiCount_one cs).1 ?_⟩
        simp only [hc, h, decide_true, Bool.true_and, decide_eq_false_iff_not, ne_eq, Decidable.not_not] at h1
        exact h1
    · intro h; simpa [h] using h2
    · intro h
      cases hc : a.calcs with
      | none => exact absurd hc h
      | some cs => simp only [hc, firstError_none] at h3; simpa [refuse_none] using h3 _ (List.mem_cons_self)
    · intro cs hc c hm hk
      simp only [hc, firstError_none] at h3
      have := h3 _ (List.mem_cons_of_mem _ List.mem_cons_self)
      rw [refuse_none, List.any_eq_false] at this
      exact this c hm (by simp [hk, Kind.isKeyed])
    · intro h
      simp only [h, Bool.true_and, Bool.not_eq_false'] at h4
      unfold Args.hasGeom at h4
      cases hg : a.geom with
      | none => simp [hg] at h4
      | some n => exact ⟨n, rfl, by simpa [hg] using h4⟩
    · intro n hg hn
      simp only [Args.manyGeoms, hg, hn, decide_true, Bool.and_true] at h5
      cases ha : a.aggregate
      · right; simpa [ha] using h5
      · exact Or.inl rfl
  · rintro ⟨h1, h2, h3, h3', h4, h5⟩
    refine ⟨?_, ?_, ?_, ?_, ?_⟩
    · by_cases h : 1 < a.dataset.length
      · obtain ⟨cs, hc, ho⟩ := h1 h
        rw [← multiCount_one] at ho
        simp [hc, ho]
      · simp [h]
    · cases hc : a.clip
      · rfl
      · simp [h2 hc]
    · cases hc : a.calcs with
      | none => rfl
      | some cs =>
        simp only [firstError_none]
        intro x hx
        simp only [List.mem_cons, List.not_mem_nil, or_false] at hx
        rcases hx with rfl | rfl
        · rw [refuse_none]; exact h3 (by simp [hc])
        · rw [refuse_none, List.any_eq_false]
          intro c hm hk
          have := h3' cs hc c hm
          cases hk' : c.kind <;> simp [hk', Kind.isKeyed] at hk
          exact this (by rw [hk', hk])
    · cases ha : a.aggregate
      · rfl
      · obtain ⟨n, hg, hn⟩ := h4 ha
        simp [Args.hasGeom, hg, hn]
    · unfold Args.manyGeoms
      cases hg : a.geom with
      | none => simp
      | some n =>
        by_cases hn : 1 < n
        · rcases h5 n hg hn with h | h <;> simp [h]
        · simp [hn]

theorem esmpyCheck_none (a : Args) : esmpyCheck a = none ↔ EsmpyRules a := by
  unfold esmpyCheck
  rw [firstError_none]
  simp only [List.mem_cons, forall_eq_or_imp, List.not_mem_nil, false_imp_iff, implies_true, and_true, refuse_none]
  constructor
  · rintro ⟨h1, h2, h3, h4⟩
    refine ⟨by simpa using h1, h2, ?_, h4⟩
    intro n hs hn
    simpa [hs, hn] using h3
  · rintro ⟨h1, h2, h3, h4⟩
    refine ⟨by simpa using h1, h2, ?_, h4⟩
    cases hs : a.selectUid with
    | none => simp
    | some n =>
      by_cases hn : 1 < n
      · simp [h3 n hs hn]
      · simp [hn]

theorem metaJsonCheck_none (a : Args) : metaJsonCheck a = none ↔
    a.dataset.length ≤ 1 ∧ ∀ d ∈ a.dataset, d.isField = false := by
  simp [metaJsonCheck, refuse_none]

theorem geojsonCheck_none (a : Args) (hs : Simple a) (hf : a.format = .geojson) : geojsonCheck a = none ↔
    (1 < a.dataset.length → ∃ cs, a.calcs = some cs ∧ ∃ c ∈ cs, Multivariate c) := by
  unfold geojsonCheck
  rw [refuse_none]
  by_cases h : 1 < a.dataset.length
  · cases hc : a.calcs with
    | none => simp [h]
    | some cs =>
      simp only [h, decide_true, Bool.true_and, Bool.not_eq_false', List.any_eq_true, decide_eq_true_eq, forall_const,
        Option.some.injEq, exists_eq_left']
      constructor
      · rintro ⟨c, hm, hk⟩; exact ⟨c, hm, Or.inl hk⟩
      · rintro ⟨c, hm, hk | ⟨req, hk⟩⟩
        · exact ⟨c, hm, hk⟩
        · exact absurd hk (hs.noGeojson hf cs hc c hm req)
  · simp [h]

theorem mem_projections (ds : List Dataset) (acc : List (Option Crs)) (c : Option Crs) :
    c ∈ projections ds acc ↔ c ∈ acc ∨ ∃ d ∈ ds, d.crs = c := by
  induction ds generalizing acc with
  | nil => simp [projections]
  | cons d ds ih =>
    rw [projections, ih]
    split
    · rename_i h
      simp only [List.any_eq_true, decide_eq_true_eq] at h
      obtain ⟨x, hx, rfl⟩ := h
      simp only [List.mem_cons, exists_eq_or_imp]
      constructor
      · rintro (h | h)
        · exact Or.inl h
        · exact Or.inr (Or.inr h)
      · rintro (h | rfl | h)
        · exact Or.inl h
        · exact Or.inl hx
        · exact Or.inr h
    · simp only [List.mem_append, List.mem_cons, List.not_mem_nil, or_false, exists_eq_or_imp]
      constructor
      · rintro ((h | h) | h)
        · exact Or.inl h
        · exact Or.inr (Or.inl h.symm)
        · exact Or.inr (Or.inr h)
      · rintro (h | h | h)
        · exact Or.inl (Or.inl h)
        · exact Or.inl (Or.inr h.symm)
        · exact Or.inr h

theorem projections_nodup (ds : List Dataset) (acc : List (Option Crs)) (h : acc.Nodup) :
    (projections ds acc).Nodup := by
  induction ds generalizing acc with
  | nil => exact h
  | cons d ds ih =>
    rw [projections]
    apply ih
    split
    · exact h
    · rename_i hn
      simp only [List.any_eq_true, decide_eq_true_eq, not_exists, not_and] at hn
      rw [List.nodup_append]
      refine ⟨h, by simp, ?_⟩
      intro x hx y hy
      simp only [List.mem_cons, List.not_mem_nil, or_false] at hy
      subst hy
      exact hn x hx

theorem projections_le_one (ds : List Dataset) :
    (projections ds []).length ≤ 1 ↔ ∀ d ∈ ds, ∀ e ∈ ds, d.crs = e.crs := by
  constructor
  · intro h d hd e he
    have h1 : d.crs ∈ projections ds [] := (mem_projections ..).2 (Or.inr ⟨d, hd, rfl⟩)
    have h2 : e.crs ∈ projections ds [] := (mem_projections ..).2 (Or.inr ⟨e, he, rfl⟩)
    match hp : projections ds [], h with
    | [], _ => rw [hp] at h1; simp at h1
    | [x], _ => rw [hp] at h1 h2; simp at h1 h2; rw [h1, h2]
  · intro h
    have hn := projections_nodup ds [] List.nodup_nil
    match hp : projections ds [] with
    | [] => simp
    | [_] => simp
    | x :: y :: l =>
      exfalso
      obtain ⟨d, hd, rfl⟩ : ∃ d ∈ ds, d.crs = x := by
        simpa using (mem_projections ds [] x).1 (by rw [hp]; simp)
      obtain ⟨e, he, rfl⟩ : ∃ d ∈ ds, d.crs = y := by
        simpa using (mem_projections ds [] y).1 (by rw [hp]; simp)
      rw [hp] at hn
      simp at hn
      exact hn.1.1 (h d hd e he)

theorem crsCheck_none (a : Args) : crsCheck a = none ↔
    (a.format ≠ .ocgis → a.outputCrs = none → ∀ d ∈ a.dataset, ∀ e ∈ a.dataset, d.crs = e.crs) := by
  unfold crsCheck
  rw [refuse_none, ← projections_le_one]
  by_cases h1 : a.format = .ocgis
  · simp [h1]
  · by_cases h2 : a.outputCrs = none
    · simp [h1, h2]
    · simp [h2]

theorem anyRotated_iff (a : Args) : a.anyRotated = true ↔ OnRotatedPole a := by
  unfold Args.anyRotated OnRotatedPole
  rw [List.any_eq_true]
  constructor
  · rintro ⟨c, hc, h⟩
    obtain ⟨d, hd, rfl⟩ : ∃ d ∈ a.dataset, d.crs = c := by simpa using (mem_projections _ _ c).1 hc
    refine ⟨d, hd, ?_⟩
    cases hc' : d.crs with
    | none => simp [hc'] at h
    | some c => cases c <;> simp [hc', Crs.isRotated] at h ⊢
  · rintro ⟨d, hd, n, h⟩
    exact ⟨d.crs, (mem_projections ..).2 (Or.inr ⟨d, hd, rfl⟩), by simp [h, Crs.isRotated]⟩

theorem rotatedCheck_none (a : Args) : rotatedCheck a = none ↔
    (OnRotatedPole a → a.outputCrs = none ∨ a.outputCrs = some .spherical) := by
  unfold rotatedCheck
  rw [refuse_none, ← anyRotated_iff]
  cases a.anyRotated
  · simp
  · by_cases h : a.outputCrs = none
    · simp [h]
    · simp [h]

theorem geographic_iff (c : Crs) : geographic c = true ↔ Geographic c := by simp [geographic, Geographic]

theorem geojsonCrsCheck_none (a : Args) : geojsonCrsCheck a = none ↔ (a.format = .geojson →
    (∀ c, a.outputCrs = some c → Geographic c) ∧
    (a.outputCrs = none → ∀ d ∈ a.dataset, ∀ c, d.crs = some c → Geographic c)) := by
  unfold geojsonCrsCheck
  by_cases h : a.format = .geojson
  · rw [if_pos h]
    cases hc : a.outputCrs with
    | some c => simp [h, refuse_none, geographic_iff]
    | none =>
      simp only [h, refuse_none, List.any_eq_false, reduceCtorEq, false_imp_iff, implies_true, true_and, forall_const]
      constructor
      · intro hp d hd c hdc
        have := hp d.crs ((mem_projections ..).2 (Or.inr ⟨d, hd, rfl⟩))
        rw [hdc] at this
        rw [← geographic_iff]
        simpa using this
      · intro hp x hx
        obtain ⟨d, hd, rfl⟩ : ∃ d ∈ a.dataset, d.crs = x := by simpa using (mem_projections _ _ x).1 hx
        cases hdc : d.crs with
        | none => simp
        | some c => simpa [geographic_iff] using hp d hd c hdc
  · rw [if_neg h]; simp [h]

theorem snippetCheck_none (a : Args) : snippetCheck a = none ↔
    (a.snippet = true → a.calcs = none ∧ ∀ d ∈ a.dataset, d.isField = false → d.timeRegion = false) := by
  unfold snippetCheck
  cases a.snippet
  · simp
  · simp [firstError_none, refuse_none]

theorem sliceCheck_none (a : Args) : sliceCheck a = none ↔ (a.slice = true → a.geom = none) := by
  unfold sliceCheck
  cases a.slice
  · simp
  · simp

theorem fileOnlyCheck_none (a : Args) : fileOnlyCheck a = none ↔
    (a.fileOnly = true → a.format = .nc ∧ a.calcs ≠ none) := by
  unfold fileOnlyCheck
  cases a.fileOnly
  · simp
  · simp [firstError_none, refuse_none]

theorem regridCheck_none (n : Nat) (a : Args) : regridCheck n a = none ↔
    (a.regrid = true → n ≤ 1 ∧ a.clip = false) := by
  unfold regridCheck
  cases a.regrid
  · simp
  · simp [firstError_none, refuse_none]

theorem kwds_lookup_iff (l : List (String × String)) (hn : (l.map Prod.fst).Nodup) (k v : String) :
    l.lookup k = some v ↔ (k, v) ∈ l := by
  induction l with
  | nil => simp
  | cons p l ih =>
    obtain ⟨k', v'⟩ := p
    simp only [List.map_cons, List.nodup_cons] at hn
    rw [List.lookup_cons]
    by_cases h : k = k'
    · subst h
      simp only [beq_self_eq_true, Option.some.injEq, List.mem_cons, Prod.mk.injEq, true_and]
      constructor
      · exact fun h => Or.inl h.symm
      · rintro (h | h)
        · exact h.symm
        · exact absurd (List.mem_map.2 ⟨_, h, rfl⟩) hn.1
    · have : (k == k') = false := by simpa using h
      simp only [this, ih hn.2, List.mem_cons, Prod.mk.injEq, h, false_and, false_or]

theorem multiCheck_none (a : Args) (cs : List Calc) (hc : a.calcs = some cs) (c : Calc) (hm : c ∈ cs)
    (req : List String) (h2 : 2 ≤ req.length) (ho : ∀ x ∈ cs, x.func = c.func → x = c)
    (hd : (c.kwds.map Prod.fst).Nodup) : multiCheck a c.func req = none ↔ (a.sampleSize = false ∧
      ∀ r ∈ req, ∃ v, (r, v) ∈ c.kwds ∧ ∃ d ∈ a.dataset, v ∈ d.names) := by
  have hf : cs.find? (fun x => decide (x.func = c.func)) = some c := by
    cases h : cs.find? (fun x => decide (x.func = c.func)) with
    | none => rw [List.find?_eq_none] at h; exact absurd (h c hm) (by simp)
    | some x =>
      rw [ho x (List.mem_of_find?_eq_some h) (by simpa using List.find?_some h)]
  unfold multiCheck
  cases hs : a.sampleSize
  · simp only [Bool.false_eq_true, if_false, hc, Option.getD_some, hf, true_and]
    constructor
    · intro h r hr
      split at h
      · cases h
      · split at h
        · cases h
        · rename_i hk
          rw [refuse_none, List.any_eq_false] at h
          have hv := h r hr
          simp only [Bool.not_eq_true, List.any_eq_false] at hk
          have hk' := hk r hr
          cases hl : c.kwds.lookup r with
          | none => simp [hl] at hk'
          | some v =>
            refine ⟨v, (kwds_lookup_iff _ hd r v).1 hl, ?_⟩
            simpa [hl, allNames] using hv
    · intro h
      have hfil : (req.filter fun r => (c.kwds.map Prod.fst).contains r) = req := by
        rw [List.filter_eq_self]
        intro r hr
        obtain ⟨v, hv, -⟩ := h r hr
        simp only [List.contains_eq_mem, decide_eq_true_eq]
        exact List.mem_map.2 ⟨_, hv, rfl⟩
      rw [hfil]
      split
      · omega
      · split
        · rename_i hk
          rw [List.any_eq_true] at hk
          obtain ⟨r, hr, hk⟩ := hk
          obtain ⟨v, hv, -⟩ := h r hr
          rw [(kwds_lookup_iff _ hd r v).2 hv] at hk
          cases hk
        · rw [refuse_none, List.any_eq_false]
          intro r hr
          obtain ⟨v, hv, hn⟩ := h r hr
          rw [(kwds_lookup_iff _ hd r v).2 hv]
          simpa [allNames] using hn
  · simp

theorem isEval_iff (c : Calc) : c.isEval = true ↔ Expression c := by simp [Calc.isEval, Expression]

/-- The flag says whether the last calculation is an expression. -/
def FlagOk (a : Args) : Prop := ∀ cs c, a.calcs = some (cs ++ [c]) → a.evalFlag = c.isEval

theorem flagAfter_append (old : Bool) (cs : List Calc) (c : Calc) : flagAfter old (cs ++ [c]) = c.isEval := by
  induction cs generalizing old with
  | nil => rfl
  | cons x cs ih => exact ih _

theorem calcsCheck_none (a : Args) (hs : Simple a) (hfl : FlagOk a) : calcsCheck a = none ↔
    (∀ cs, a.calcs = some cs → ∀ c ∈ cs, CalcRules a c) := by
  unfold calcsCheck
  cases hc : a.calcs with
  | none => simp
  | some cs =>
    have hne : cs ≠ [] := fun h => hs.nonempty (by rw [hc, h])
    simp only [Option.some.injEq, forall_eq']
    obtain ⟨l, x, hl⟩ : ∃ l x, cs = l ++ [x] := ⟨_, _, (List.dropLast_concat_getLast hne).symm⟩
    have hflag := hfl l x (by rw [hc, hl])
    have hx : x ∈ cs := by rw [hl]; simp
    rcases hs.uniform cs hc with hu | hu
    · rw [hflag, (isEval_iff x).2 (hu x hx)]
      simp only [if_true, refuse_none, ne_eq, decide_not, Bool.not_eq_false', decide_eq_true_eq]
      constructor
      · intro hg c hm
        rcases hu c hm with h | h <;> simp [CalcRules, h, hg]
      · intro h
        have := h x hx
        rcases hu x hx with h' | h' <;> simpa [CalcRules, h'] using this
    · have : x.isEval = false := by
        rw [Bool.eq_false_iff]; intro h; exact hu x hx ((isEval_iff x).1 h)
      rw [hflag, this]
      simp only [Bool.false_eq_true, if_false, firstError_none, List.mem_map, forall_exists_index, and_imp,
        forall_apply_eq_imp_iff₂]
      apply forall_congr'
      intro c
      apply imp_congr_right
      intro hm
      have hne := hu c hm
      unfold calcCheck CalcRules
      cases hk : c.kind with
      | plain => simp
      | eval => exact absurd (Or.inl hk) hne
      | multiEval => exact absurd (Or.inr hk) hne
      | set => simp [refuse_none]
      | movingWindow => simp [refuse_none]
      | duration k => cases hg : a.grouping <;> simp [refuse_none]
      | multi req =>
        obtain ⟨h2, ho⟩ := hs.once cs hc c hm req hk
        exact multiCheck_none a cs hc c hm req h2 ho (hs.dicts cs hc c hm)

theorem formatCheck_none (a : Args) (hs : Simple a) : formatCheck a = none ↔
    (a.format = .nc → NetcdfRules a) ∧ (a.format = .esmpy → EsmpyRules a) ∧
    (a.format = .geojson → 1 < a.dataset.length → ∃ cs, a.calcs = some cs ∧ ∃ c ∈ cs, Multivariate c) ∧
    (a.format = .metaJson → a.dataset.length ≤ 1 ∧ ∀ d ∈ a.dataset, d.isField = false) := by
  unfold formatCheck
  cases h : a.format with
  | geojson => simp [geojsonCheck_none a hs h]
  | _ => simp [ncCheck_none, esmpyCheck_none, metaJsonCheck_none]

theorem early_none (n : Nat) (a : Args) (hs : Simple a) :
    firstError ((a.dataset.map (driverCheck a.format)) ++
      [formatCheck a, regridCheck n a, crsCheck a, rotatedCheck a]) = none ↔
    ((∀ d ∈ a.dataset, d.isField = false → ∀ l, d.formats = some l → a.format ∈ l) ∧
     (a.format = .nc → NetcdfRules a) ∧ (a.format = .esmpy → EsmpyRules a) ∧
     (a.format = .geojson → 1 < a.dataset.length → ∃ cs, a.calcs = some cs ∧ ∃ c ∈ cs, Multivariate c) ∧
     (a.format = .metaJson → a.dataset.length ≤ 1 ∧ ∀ d ∈ a.dataset, d.isField = false) ∧
     (a.regrid = true → n ≤ 1 ∧ a.clip = false) ∧
     (a.format ≠ .ocgis → a.outputCrs = none → ∀ d ∈ a.dataset, ∀ e ∈ a.dataset, d.crs = e.crs) ∧
     (OnRotatedPole a → a.outputCrs = none ∨ a.outputCrs = some .spherical)) := by
  rw [firstError_none]
  simp only [List.mem_append, List.mem_map, List.mem_cons, List.not_mem_nil, or_false]
  constructor
  · intro h
    obtain ⟨f1, f2, f3, f4⟩ := (formatCheck_none a hs).1 (h _ (Or.inr (Or.inl rfl)))
    refine ⟨fun d hd => (driverCheck_none _ _).1 (h _ (Or.inl ⟨d, hd, rfl⟩)), f1, f2, f3, f4, ?_, ?_, ?_⟩
    · exact (regridCheck_none n a).1 (h _ (Or.inr (Or.inr (Or.inl rfl))))
    · exact (crsCheck_none a).1 (h _ (Or.inr (Or.inr (Or.inr (Or.inl rfl)))))
    · exact (rotatedCheck_none a).1 (h _ (Or.inr (Or.inr (Or.inr (Or.inr rfl)))))
  · rintro ⟨h1, f1, f2, f3, f4, h2, h3, h4⟩ x (⟨d, hd, rfl⟩ | rfl | rfl | rfl | rfl)
    · exact (driverCheck_none _ _).2 (h1 d hd)
    · exact (formatCheck_none a hs).2 ⟨f1, f2, f3, f4⟩
    · exact (regridCheck_none n a).2 h2
    · exact (crsCheck_none a).2 h3
    · exact (rotatedCheck_none a).2 h4

/-- `b` differs from `a` in the output coordinate system only. -/
theorem updateCrs_eq (a : Args) : updateCrs a = a ∨
    (OnRotatedPole a ∧ (a.aggregate = true ∨ a.clip = true) ∧ updateCrs a = { a with outputCrs := some .spherical }) := by
  unfold updateCrs
  split
  · rename_i h
    simp only [Bool.and_eq_true, Bool.or_eq_true] at h
    exact Or.inr ⟨(anyRotated_iff a).1 h.1, h.2, rfl⟩
  · exact Or.inl rfl

theorem simple_update (a : Args) (c : Option Crs) : Simple { a with outputCrs := c } ↔ Simple a :=
  ⟨fun ⟨h1, h2, h3, h4, h5⟩ => ⟨h1, h2, h3, h4, h5⟩, fun ⟨h1, h2, h3, h4, h5⟩ => ⟨h1, h2, h3, h4, h5⟩⟩

theorem validate_fst (n : Nat) (a : Args) : (validate n a).1 = a ∨
    (OnRotatedPole a ∧ (validate n a).1 = { a with outputCrs := some .spherical }) := by
  unfold validate
  split
  · exact Or.inl rfl
  · rcases updateCrs_eq a with h | ⟨h1, -, h⟩
    · exact Or.inl h
    · exact Or.inr ⟨h1, h⟩

theorem simple_validate (n : Nat) (a : Args) : Simple (validate n a).1 ↔ Simple a := by
  rcases validate_fst n a with h | ⟨-, h⟩ <;> rw [h]
  exact simple_update a _

theorem validate_iff (n : Nat) (a : Args) (hs : Simple a) (hfl : FlagOk a) :
    (validate n a).2 = none ↔ Valid n (validate n a).1 := by
  have he := early_none n a hs
  unfold validate
  split
  · rename_i e h
    constructor
    · intro h'; cases h'
    · intro hv
      rw [he.2 ⟨hv.drivers, hv.netcdf, hv.esmpy, fun hf => (hv.geojson hf).oneDataset, hv.metaJson, hv.regrid,
        hv.oneCrs, hv.rotatedOutput⟩] at h
      cases h
  · rename_i h
    obtain ⟨h1, h2, h3, h4, h5, h6, h7, h8⟩ := he.1 h
    have hsb : Simple (updateCrs a) := by
      rcases updateCrs_eq a with hu | ⟨-, -, hu⟩ <;> rw [hu]
      · exact hs
      · exact (simple_update a _).2 hs
    have hfb : FlagOk (updateCrs a) := by
      rcases updateCrs_eq a with hu | ⟨-, -, hu⟩ <;> rw [hu]
      · exact hfl
      · exact hfl
    have hrest : (∀ d ∈ (updateCrs a).dataset, d.isField = false → ∀ l, d.formats = some l → (updateCrs a).format ∈ l) ∧
        ((updateCrs a).format = .nc → NetcdfRules (updateCrs a)) ∧
        ((updateCrs a).format = .esmpy → EsmpyRules (updateCrs a)) ∧
        ((updateCrs a).format = .geojson → 1 < (updateCrs a).dataset.length → ∃ cs, (updateCrs a).calcs = some cs ∧
          ∃ c ∈ cs, Multivariate c) ∧
        ((updateCrs a).format = .metaJson → (updateCrs a).dataset.length ≤ 1 ∧
          ∀ d ∈ (updateCrs a).dataset, d.isField = false) ∧
        ((updateCrs a).regrid = true → n ≤ 1 ∧ (updateCrs a).clip = false) ∧
        ((updateCrs a).format ≠ .ocgis → (updateCrs a).outputCrs = none →
          ∀ d ∈ (updateCrs a).dataset, ∀ e ∈ (updateCrs a).dataset, d.crs = e.crs) ∧
        (OnRotatedPole (updateCrs a) → (updateCrs a).outputCrs = none ∨ (updateCrs a).outputCrs = some .spherical) ∧
        (OnRotatedPole (updateCrs a) → ((updateCrs a).aggregate = true ∨ (updateCrs a).clip = true) →
          (updateCrs a).outputCrs = some .spherical) := by
      rcases updateCrs_eq a with hu | ⟨hr, hm, hu⟩
      · have hnr : OnRotatedPole a → ¬ (a.aggregate = true ∨ a.clip = true) ∨ a.outputCrs = some .spherical := by
          intro hr
          by_cases hm : a.aggregate = true ∨ a.clip = true
          · right
            have := hu
            unfold updateCrs at this
            rw [if_pos (by simp [(anyRotated_iff a).2 hr, hm])] at this
            rw [← this]
          · exact Or.inl hm
        rw [hu]
        exact ⟨h1, h2, h3, h4, h5, h6, h7, h8, fun hr hm => (hnr hr).resolve_left (fun h => h hm)⟩
      · rw [hu]
        refine ⟨h1, ?_, ?_, h4, h5, h6, ?_, ?_, ?_⟩
        · intro hf; obtain ⟨q1, q2, q3, q4, q5, q6⟩ := h2 hf; exact ⟨q1, q2, q3, q4, q5, q6⟩
        · intro hf; obtain ⟨q1, q2, q3, q4⟩ := h3 hf; exact ⟨q1, q2, q3, q4⟩
        · intro _ h'; cases h'
        · intro _; exact Or.inr rfl
        · intro _ _; rfl
    obtain ⟨b1, b2, b3, b4, b5, b6, b7, b8, b9⟩ := hrest
    simp only [firstError_none, List.mem_cons, forall_eq_or_imp, List.not_mem_nil, false_imp_iff, implies_true, and_true]
    rw [geojsonCrsCheck_none, snippetCheck_none, sliceCheck_none, fileOnlyCheck_none, calcsCheck_none _ hsb hfb]
    constructor
    · rintro ⟨g1, g2, g3, g4, g5⟩
      exact ⟨b1, b2, b3, fun hf => ⟨b4 hf, (g1 hf).1, (g1 hf).2⟩, b5, b6, b7, b8, b9, g2, g3, g4, g5⟩
    · intro hv
      exact ⟨fun hf => ⟨(hv.geojson hf).outputGeographic, (hv.geojson hf).inputGeographic⟩, hv.snippet, hv.slice,
        hv.fileOnly, hv.calcs⟩

theorem flagOk_store (a : Args) (s : Assign) (h : FlagOk a) : FlagOk (store a s) := by
  cases s with
  | calcs v =>
    cases v with
    | none => intro cs c hc; simp [store] at hc
    | some v =>
      intro cs c hc
      simp only [store, Option.some.injEq] at hc ⊢
      rw [hc]
      exact flagAfter_append _ _ _
  | _ => exact h

theorem flagOk_validate (n : Nat) (a : Args) (h : FlagOk a) : FlagOk (validate n a).1 := by
  rcases validate_fst n a with h' | ⟨-, h'⟩ <;> rw [h']
  · exact h
  · exact h

theorem flagOk_fold (ss : List Assign) (a : Args) (h : FlagOk a) : FlagOk (ss.foldl store a) := by
  induction ss generalizing a with
  | nil => exact h
  | cons s ss ih => exact ih _ (flagOk_store a s h)

theorem flagOk_reachable (n : Nat) (a : Args) (h : Reachable n a) : FlagOk a := by
  induction h with
  | construct ds kw _ => exact flagOk_validate n _ (flagOk_fold kw _ (by intro cs c hc; cases hc))
  | assign a s _ ih => exact flagOk_validate n _ (flagOk_store a s ih)

theorem store_reads (a : Args) (s : Assign) : Reads (store a s) s := by
  cases s with
  | calcs v => cases v <;> rfl
  | _ => rfl

theorem store_keeps (a : Args) (s t : Assign) (h : argument s ≠ argument t) : Reads (store a s) t ↔ Reads a t := by
  cases s with
  | calcs v => cases v <;> cases t <;> first | exact Iff.rfl | exact absurd rfl h
  | _ => cases t <;> first | exact Iff.rfl | exact absurd rfl h

theorem validate_keeps (n : Nat) (a : Args) (t : Assign) (h : argument t ≠ "output_crs") :
    Reads (validate n a).1 t ↔ Reads a t := by
  rcases validate_fst n a with h' | ⟨-, h'⟩ <;> rw [h']
  cases t <;> first | exact Iff.rfl | exact absurd rfl h

theorem assignAll_cons (n : Nat) (a : Args) (s : Assign) (ss : List Assign) :
    (assignAll n a (s :: ss)).1 = (assignAll n (assign n a s).1 ss).1 := by
  have key : ∀ (ss : List Assign) (b : Args) (l m : List (Option PyErr)),
      (ss.foldl (fun st s => let r := assign n st.1 s; (r.1, st.2 ++ [r.2])) (b, l)).1 =
      (ss.foldl (fun st s => let r := assign n st.1 s; (r.1, st.2 ++ [r.2])) (b, m)).1 := by
    intro ss
    induction ss with
    | nil => intro b l m; rfl
    | cons s ss ih => intro b l m; exact ih _ _ _
  exact key ss _ _ _

theorem not_rotated_store (a : Args) (s : Assign) (ha : ¬ OnRotatedPole a) (hs : NoRotated s) :
    ¬ OnRotatedPole (store a s) := by
  cases s with
  | dataset ds =>
    rintro ⟨d, hd, n, h⟩
    exact hs d hd n h
  | calcs v => cases v <;> exact ha
  | _ => exact ha

theorem assignAll_fold (n : Nat) (ss : List Assign) (a : Args) (ha : ¬ OnRotatedPole a) (hs : ∀ s ∈ ss, NoRotated s) :
    (assignAll n a ss).1 = ss.foldl store a := by
  induction ss generalizing a with
  | nil => rfl
  | cons s ss ih =>
    have hr := not_rotated_store a s ha (hs s List.mem_cons_self)
    have : (assign n a s).1 = store a s := by
      rcases validate_fst n (store a s) with h | ⟨h, -⟩
      · exact h
      · exact absurd h hr
    rw [assignAll_cons, this]
    exact ih _ hr (fun x hx => hs x (List.mem_cons_of_mem _ hx))

theorem store_comm (a : Args) (s t : Assign) (h : argument s ≠ argument t) :
    store (store a s) t = store (store a t) s := by
  cases s with
  | calcs v => cases v <;> cases t <;> first | rfl | exact absurd rfl h
  | _ =>
    cases t with
    | calcs v => cases v <;> first | rfl | exact absurd rfl h
    | _ => first | rfl | exact absurd rfl h

theorem fold_perm (ss tt : List Assign) (hp : ss.Perm tt) (hd : (ss.map argument).Nodup) (a : Args) :
    ss.foldl store a = tt.foldl store a := by
  induction hp generalizing a with
  | nil => rfl
  | cons x _ ih => exact ih (List.nodup_cons.1 hd).2 _
  | swap x y l =>
    simp only [List.foldl_cons]
    simp only [List.map_cons, List.nodup_cons, List.mem_cons, not_or] at hd
    rw [store_comm a y x hd.1.1]
  | trans h1 _ ih1 ih2 => rw [ih1 hd a]; exact ih2 ((h1.map _).nodup_iff.1 hd) a

theorem lookup_put {R V : Type} (o : Attrs R V) (name : String) (s : Slot R V) (x : String) :
    (o.put name s).lookup x = if x = name then some s else o.lookup x := by
  unfold Attrs.put
  rw [List.lookup_cons]
  by_cases h : x = name
  · simp [h]
  · have hb : (x == name) = false := by simpa using h
    simp only [hb, h, if_false]
    induction o with
    | nil => rfl
    | cons p o ih =>
      obtain ⟨k, v⟩ := p
      by_cases hp : k = name
      · subst hp
        rw [List.filter_cons_of_neg (by simp), List.lookup_cons, hb]
        exact ih
      · rw [List.filter_cons_of_pos (by simpa using hp), List.lookup_cons, List.lookup_cons, ih]

theorem firstError_mem (l : List (Option PyErr)) (e : PyErr) (h : firstError l = some e) : some e ∈ l := by
  induction l with
  | nil => cases h
  | cons a l ih =>
    cases a with
    | none => exact List.mem_cons_of_mem _ (ih h)
    | some x =>
      simp only [firstError, Option.some.injEq] at h
      simp [h]

theorem refuse_kind (b : Bool) (e : PyErr) (h : refuse b = some e) : e = .definitionValidation := by
  unfold refuse at h
  split at h
  · cases h; rfl
  · cases h

theorem driver_kind (f : Fmt) (d : Dataset) (e : PyErr) (h : driverCheck f d = some e) : e = .definitionValidation := by
  unfold driverCheck at h
  split at h
  · cases h
  · split at h
    · cases h
    · exact refuse_kind _ _ h

theorem format_kind (a : Args) (e : PyErr) (h : formatCheck a = some e) : e = .definitionValidation := by
  unfold formatCheck at h
  split at h
  · have := firstError_mem _ _ h
    simp only [List.mem_cons, List.not_mem_nil, or_false] at this
    rcases this with h | h | h | h | h
    · exact refuse_kind _ _ h.symm
    · exact refuse_kind _ _ h.symm
    · split at h
      · cases h
      · have := firstError_mem _ _ h.symm
        simp only [List.mem_cons, List.not_mem_nil, or_false] at this
        rcases this with h | h
        · exact refuse_kind _ _ h.symm
        · exact refuse_kind _ _ h.symm
    · exact refuse_kind _ _ h.symm
    · exact refuse_kind _ _ h.symm
  · have := firstError_mem _ _ h
    simp only [List.mem_cons, List.not_mem_nil, or_false] at this
    rcases this with h | h | h | h <;> exact refuse_kind _ _ h.symm
  · exact refuse_kind _ _ h
  · exact refuse_kind _ _ h
  · cases h

theorem lookup_isNone (l : List (String × String)) (r : String) : (l.lookup r).isNone = true ↔ r ∉ l.map Prod.fst := by
  induction l with
  | nil => simp
  | cons p l ih =>
    obtain ⟨a, b⟩ := p
    by_cases h : r = a
    · simp [List.lookup, h]
    · have hb : (r == a) = false := by simpa using h
      simp [List.lookup, hb, h, ih]

theorem errorKind (ranks : Nat) (a0 : Args) (e : PyErr) (h : (validate ranks a0).2 = some e)
    (he : e ≠ .definitionValidation) :
    let a := (validate ranks a0).1
    (a.slice = true ∧ a.geom ≠ none)
    ∨ ∃ cs, a.calcs = some cs ∧ ∃ c ∈ cs,
      ((∃ k, c.kind = .duration k) ∧ a.grouping = none)
      ∨ ∃ req, c.kind = .multi req ∧ ∃ x ∈ cs, x.func = c.func ∧ 2 ≤ (req.filter fun r => r ∈ x.kwds.map Prod.fst).length
          ∧ ∃ r ∈ req, r ∉ x.kwds.map Prod.fst := by
  unfold validate at h ⊢
  split at h
  · rename_i e' heq
    simp only [Option.some.injEq] at h
    subst h
    exfalso
    have := firstError_mem _ _ heq
    simp only [List.mem_append, List.mem_map, List.mem_cons, List.not_mem_nil, or_false] at this
    rcases this with ⟨d, _, h⟩ | h | h | h | h
    · exact he (driver_kind _ _ _ h)
    · exact he (format_kind _ _ h.symm)
    · unfold regridCheck at h
      split at h
      · have := firstError_mem _ _ h.symm
        simp only [List.mem_cons, List.not_mem_nil, or_false] at this
        rcases this with h | h <;> exact he (refuse_kind _ _ h.symm)
      · cases h
    · exact he (refuse_kind _ _ h.symm)
    · exact he (refuse_kind _ _ h.symm)
  · rename_i heq
    simp only at h ⊢
    generalize updateCrs a0 = a at h ⊢
    have := firstError_mem _ _ h
    simp only [List.mem_cons, List.not_mem_nil, or_false] at this
    rcases this with h | h | h | h | h
    · exfalso
      unfold geojsonCrsCheck at h
      split at h
      · split at h <;> exact he (refuse_kind _ _ h.symm)
      · cases h
    · exfalso
      unfold snippetCheck at h
      split at h
      · have := firstError_mem _ _ h.symm
        simp only [List.mem_cons, List.not_mem_nil, or_false] at this
        rcases this with h | h <;> exact he (refuse_kind _ _ h.symm)
      · cases h
    · left
      unfold sliceCheck at h
      split at h
      · rename_i hs
        simpa using hs
      · cases h
    · exfalso
      unfold fileOnlyCheck at h
      split at h
      · have := firstError_mem _ _ h.symm
        simp only [List.mem_cons, List.not_mem_nil, or_false] at this
        rcases this with h | h <;> exact he (refuse_kind _ _ h.symm)
      · cases h
    · right
      unfold calcsCheck at h
      split at h
      · cases h
      · rename_i cs hcs
        refine ⟨cs, hcs, ?_⟩
        split at h
        · exact absurd (refuse_kind _ _ h.symm) he
        · have := firstError_mem _ _ h.symm
          obtain ⟨c, hc, h⟩ := List.mem_map.1 this
          refine ⟨c, hc, ?_⟩
          unfold calcCheck at h
          split at h
          · cases h
          · cases h
          · cases h
          · exact absurd (refuse_kind _ _ h) he
          · exact absurd (refuse_kind _ _ h) he
          · rename_i k hk
            split at h
            · rename_i hg
              exact Or.inl ⟨⟨k, hk⟩, hg⟩
            · exact absurd (refuse_kind _ _ h) he
          · rename_i req hk
            right
            refine ⟨req, hk, ?_⟩
            unfold multiCheck at h
            split at h
            · cases h; exact absurd rfl he
            · split at h
              · cases h
              · rename_i x hx
                have hxm := List.mem_of_find?_eq_some hx
                have hxf := List.find?_some hx
                rw [hcs, Option.getD_some] at hxm
                refine ⟨x, hxm, by simpa using hxf, ?_⟩
                split at h
                · cases h; exact absurd rfl he
                · rename_i h2
                  split at h
                  · rename_i h3
                    refine ⟨?_, ?_⟩
                    · have : (req.filter fun r => decide (r ∈ x.kwds.map Prod.fst))
                          = req.filter fun r => (x.kwds.map Prod.fst).contains r := by
                        congr 1
                        funext r
                        simp
                      rw [this]
                      omega
                    · obtain ⟨r, hr, hn⟩ := List.any_eq_true.1 h3
                      exact ⟨r, hr, (lookup_isNone _ _).1 hn⟩
                  · exact absurd (refuse_kind _ _ h) he

end Ocgis.Props
