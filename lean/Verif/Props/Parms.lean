import Verif.Proofs.Parms

namespace Ocgis.Props
open Ocgis Ocgis.Text Ocgis.Parms Ocgis.Spec

/-- **C56 (booleans)**: for every string, a boolean parameter is true exactly when the string, whatever its case and the
blanks around it, is `true`, `t` or `1`, false exactly when it is `false`, `f` or `0`, and every other string is rejected
with a definition error. -/
theorem C56_boolean {D : Type} (w : World D) (name : String) (s : Text) :
    (parse w name .boolean s = .ok (.bool true) ↔ ∃ t, Clean s t ∧ (t = "true".toList ∨ t = "t".toList ∨ t = "1".toList))
    ∧ (parse w name .boolean s = .ok (.bool false) ↔ ∃ t, Clean s t ∧ (t = "false".toList ∨ t = "f".toList ∨ t = "0".toList))
    ∧ (parse w name .boolean s = .ok (.bool true) ∨ parse w name .boolean s = .ok (.bool false)
      ∨ parse w name .boolean s = .error .definitionValidation) := by
  have key : ∀ b, parse w name .boolean s = .ok (.bool b) ↔ ∃ t, Clean s t ∧ boolWord t = some b := by
    intro b
    simp only [parse, parseBoolean]
    constructor
    · intro h
      cases hb : bare true s with
      | none => rw [hb] at h; simp [null] at h
      | some t =>
        rw [hb] at h
        simp only [Option.bind_some] at h
        cases hw : boolWord t with
        | none => rw [hw] at h; simp [null] at h
        | some b' =>
          rw [hw] at h
          injection h with h
          injection h with h
          subst h
          exact ⟨t, ((bare_some true s t).1 hb).1, hw⟩
    · rintro ⟨t, h1, h2⟩
      have : bare true s = some t := (bare_some true s t).2 ⟨h1, by rintro rfl; exact absurd h2 (by cases b <;> decide)⟩
      rw [this]
      simp only [Option.bind_some, h2]
  refine ⟨?_, ?_, ?_⟩
  · rw [key]; simp only [boolWord_some]; simp
  · rw [key]; simp only [boolWord_some]; simp
  · simp only [parse, parseBoolean]
    cases (bare true s).bind boolWord with
    | none => exact .inr (.inr rfl)
    | some b => cases b
                · exact .inr (.inl rfl)
                · exact .inl rfl

example : parse sampleWorld "melted" .boolean "  TrUe ".toList = .ok (.bool true) := by decide
example : parse sampleWorld "melted" .boolean "yes".toList = .error .definitionValidation := by decide

/-- **C56 (options)**: for every string, an option parameter takes a value exactly when the string, whatever its case and
the blanks around it, is one of the valid words, and this word is the value; `none` is null where the parameter is
nullable; everything else is rejected with a definition error. -/
theorem C56_option {D : Type} (w : World D) (name : String) (valid : List String) (n : Bool) (s : Text) :
    (∀ v, parse w name (.option valid n) s = .ok v ↔ (v = .null ∧ n = true ∧ Clean s "none".toList)
      ∨ ∃ o ∈ valid, v = .text o.toList ∧ Clean s o.toList ∧ o.toList ≠ "none".toList)
    ∧ ∀ e, parse w name (.option valid n) s = .error e → e = .definitionValidation := by
  refine ⟨fun v => parseOption_ok valid n s v, ?_⟩
  intro e h
  simp only [parse, parseOption] at h
  cases hb : bare true s with
  | none => rw [hb] at h; cases n <;> simp [null] at h; exact h.symm
  | some t =>
    rw [hb] at h
    dsimp only at h
    split at h
    · cases h
    · injection h with h; exact h.symm

example : parse sampleWorld "abstraction" (.option ["point", "polygon", "auto"] true) " Polygon".toList
    = .ok (.text "polygon".toList) := by decide
example : parse sampleWorld "abstraction" (.option ["point", "polygon", "auto"] true) " NONE".toList = .ok .null := by decide

/-- **C56 (texts)**: for every string, a text parameter takes the string without the blanks around it, if it passes the
check of the parameter; exactly `none` is null; everything else is rejected with a definition error. -/
theorem C56_text {D : Type} (w : World D) (name : String) (n : Bool) (g : Guard) (s : Text) :
    (∀ v, parse w name (.text n g) s = .ok v ↔ (v = .null ∧ n = true ∧ Trimmed s "none".toList)
      ∨ ∃ t, v = .text t ∧ Trimmed s t ∧ t ≠ "none".toList ∧ guarded w g t = true)
    ∧ ∀ e, parse w name (.text n g) s = .error e → e = .definitionValidation := by
  simp only [parse, parseText]
  cases hb : bare false s with
  | none =>
    have hc : Trimmed s "none".toList := (bare_none false s).1 hb
    simp only [null_ok]
    refine ⟨fun v => ⟨fun ⟨h1, h2⟩ => .inl ⟨h1, h2, hc⟩, ?_⟩, ?_⟩
    · rintro (⟨h1, h2, _⟩ | ⟨t, _, h3, h4, _⟩)
      · exact ⟨h1, h2⟩
      · exact absurd (((trimmed_iff _ _).1 h3).symm.trans ((trimmed_iff _ _).1 hc)) h4
    · intro e h; cases n <;> simp [null] at h; exact h.symm
  | some t =>
    obtain ⟨hc, hn⟩ := (bare_some false s t).1 hb
    have hc : Trimmed s t := hc
    dsimp only
    refine ⟨fun v => ⟨?_, ?_⟩, ?_⟩
    · intro h
      by_cases hg : guarded w g t = true
      · rw [if_pos hg] at h; injection h with h; exact .inr ⟨t, h.symm, hc, hn, hg⟩
      · rw [if_neg hg] at h; cases h
    · rintro (⟨_, _, h3⟩ | ⟨t', h1, h2, h3, h4⟩)
      · exact absurd (((trimmed_iff _ _).1 hc).symm.trans ((trimmed_iff _ _).1 h3)) hn
      · have : t' = t := ((trimmed_iff _ _).1 h2).symm.trans ((trimmed_iff _ _).1 hc)
        subst this
        rw [if_pos h4, h1]
    · intro e h
      by_cases hg : guarded w g t = true
      · rw [if_pos hg] at h; cases h
      · rw [if_neg hg] at h; injection h with h; exact h.symm

example : parse sampleWorld "dir_output" (.text false .path) " /tmp ".toList = .ok (.text "/tmp".toList) := by decide
example : parse sampleWorld "dir_output" (.text false .path) "/nowhere".toList = .error .definitionValidation := by decide

/-- **C56 (integers)**: for every string, the identifiers of geometries are a list of integers exactly when the string,
split at bars, has pieces that are pairwise different (in lower case, without blanks around them) and are integers;
these are the value, in order. -/
theorem C56_integers {D : Type} (w : World D) (name : String) (s : Text) (is : List Int) :
    parse w name .integers s = .ok (.ints is) ↔
      ∃ ts : List Text, (split '|' s).length = ts.length
        ∧ (∀ (i : Nat) p t, (split '|' s)[i]? = some p → ts[i]? = some t → Clean p t ∧ t ≠ "none".toList)
        ∧ ts.Nodup ∧ ts.length = is.length
        ∧ ∀ (i : Nat) t k, ts[i]? = some t → is[i]? = some k → IntText t k := by
  simp only [parse, parseIntegers]
  constructor
  · intro h
    by_cases h1 : pieces s = [none]
    · rw [if_pos h1] at h; cases h
    rw [if_neg h1] at h
    by_cases h2 : (pieces s).Nodup
    · rw [if_pos h2] at h
      cases hm : (pieces s).mapM toInteger with
      | error e => rw [hm] at h; cases h
      | ok r =>
        rw [hm] at h
        simp only [Except.map] at h
        injection h with h
        injection h with h
        subst h
        obtain ⟨h3, h4⟩ := (resMapM_ok_iff _ _ _).1 hm
        have hsome : ∀ p ∈ pieces s, ∃ t, p = some t := by
          intro p hp
          obtain ⟨i, hi, hpi⟩ := List.getElem_of_mem hp
          have := h4 i p r[i] (by rw [List.getElem?_eq_getElem hi, hpi]) (by simp [h3 ▸ hi])
          cases p with
          | none => simp [toInteger] at this
          | some t => exact ⟨t, rfl⟩
        have hts : ∃ ts : List Text, pieces s = ts.map some := by
          refine ⟨(pieces s).filterMap id, ?_⟩
          generalize pieces s = l at hsome
          induction l with
          | nil => rfl
          | cons a l ih =>
            obtain ⟨t, rfl⟩ := hsome a (by simp)
            simp only [List.filterMap_cons, id, List.map_cons]
            rw [← ih fun p hp => hsome p (by simp [hp])]
        obtain ⟨ts, hts⟩ := hts
        refine ⟨ts, ?_, ?_, ?_, ?_, ?_⟩
        · have := congrArg List.length hts
          simpa [pieces] using this
        · intro i p t hp ht
          have : (pieces s)[i]? = some (some t) := by rw [hts]; simp [ht]
          rw [pieces] at this
          simp only [List.getElem?_map, hp, Option.map_some] at this
          exact (bare_some true p t).1 (Option.some.inj this)
        · rw [hts] at h2
          rw [List.nodup_iff_pairwise_ne, List.pairwise_map] at h2
          rw [List.nodup_iff_pairwise_ne]
          exact h2.imp (by intro a b h; simpa using h)
        · rw [← h3, hts]; simp
        · intro i t k ht hk
          have := h4 i (some t) k (by rw [hts]; simp [ht]) hk
          simp only [toInteger] at this
          cases hi : toInt t with
          | none => rw [hi] at this; cases this
          | some j => rw [hi] at this; injection this with this; subst this; exact (toInt_iff t j).1 hi
    · rw [if_neg h2] at h; cases h
  · rintro ⟨ts, h1, h2, h3, h4, h5⟩
    have hts : pieces s = ts.map some := by
      apply List.ext_getElem?
      intro i
      rw [pieces, List.getElem?_map, List.getElem?_map]
      cases hp : (split '|' s)[i]? with
      | none =>
        have : ts[i]? = none := by rw [List.getElem?_eq_none_iff] at hp ⊢; omega
        rw [this]; rfl
      | some p =>
        cases ht : ts[i]? with
        | none =>
          rw [List.getElem?_eq_none_iff] at ht
          have := (List.getElem?_eq_some_iff.1 hp).1
          omega
        | some t => simp [(bare_some true p t).2 (h2 i p t hp ht)]
    have hne : ¬ pieces s = [none] := by rw [hts]; cases ts <;> simp
    have hnd : (pieces s).Nodup := by
      rw [hts, List.nodup_iff_pairwise_ne, List.pairwise_map]
      rw [List.nodup_iff_pairwise_ne] at h3
      exact h3.imp (by intro a b h; simpa using h)
    rw [if_neg hne, if_pos hnd]
    have : (pieces s).mapM toInteger = .ok is := by
      rw [hts, resMapM_ok_iff]
      refine ⟨by simpa using h4, ?_⟩
      intro i a b ha hb
      rw [List.getElem?_map] at ha
      cases ht : ts[i]? with
      | none => rw [ht] at ha; cases ha
      | some t =>
        rw [ht] at ha
        injection ha with ha
        subst ha
        simp only [toInteger, (toInt_iff t b).2 (h5 i t b ht hb)]
    rw [this]; rfl

example : parse sampleWorld "geom_select_uid" .integers "3| 14 |-2".toList = .ok (.ints [3, 14, -2]) := by decide
example : parse sampleWorld "geom_select_uid" .integers "3|3".toList = .error .definitionValidation := by decide

/-- **C56, counterexample (repeated integers)**: the pieces are compared before they are read, so the same identifier may
come out twice. -/
theorem C56_integers_counterexample :
    parse sampleWorld "geom_select_uid" .integers "1|01".toList = .ok (.ints [1, 1]) := by decide

/-- **C56 (time ranges)**: for every string, a time range is the pair of dates `a`, `b` exactly when the string has two
pieces around one bar that are read as `a` and `b`, and `a` is not after `b`. -/
theorem C56_time_range {D : Type} (w : World D) (name : String) (s : Text) (a b : D) :
    parse w name .timeRange s = .ok (.dates a b) ↔
      ∃ p q t u : Text, split '|' s = [p, q] ∧ Clean p t ∧ Clean q u ∧ t ≠ "none".toList ∧ u ≠ "none".toList
        ∧ w.strptime t = some a ∧ w.strptime u = some b ∧ w.le a b = true := by
  have hd : ∀ p x, toDate w p = .ok (some x) ↔ ∃ t, p = some t ∧ w.strptime t = some x := by
    intro p x
    cases p with
    | none => simp [toDate]
    | some t =>
      simp only [toDate]
      cases hw : w.strptime t with
      | none => simp [hw]
      | some d => simp [hw]
  have ho : ∀ ds, orderedDates w ds = .ok (.dates a b) ↔ ds = [some a, some b] ∧ w.le a b = true := by
    intro ds
    unfold orderedDates
    split
    · simp
    · rename_i x y
      by_cases h : w.le x y = true
      · rw [if_pos h]
        constructor
        · intro h'; injection h' with h'; injection h' with h1 h2; subst h1 h2; exact ⟨rfl, h⟩
        · rintro ⟨h1, _⟩; simp at h1; rw [h1.1, h1.2]
      · rw [if_neg h]
        constructor
        · intro h'; cases h'
        · rintro ⟨h1, h2⟩; simp at h1; rw [h1.1, h1.2] at h; exact absurd h2 h
    · rename_i hne _
      constructor
      · intro h; cases h
      · rintro ⟨h1, _⟩; exact absurd h1 (by simp_all)
  simp only [parse, parseTimeRange]
  constructor
  · intro h
    cases hm : (pieces s).mapM (toDate w) with
    | error e => rw [hm] at h; cases h
    | ok ds =>
      rw [hm] at h
      obtain ⟨h1, h2⟩ := (ho ds).1 h
      subst h1
      obtain ⟨h3, h4⟩ := (resMapM_ok_iff _ _ _).1 hm
      rw [pieces] at h3 h4
      match hs : split '|' s, h3 with
      | [p, q], _ =>
        rw [hs] at h4
        obtain ⟨t, ht, ht'⟩ := (hd _ _).1 (h4 0 _ _ rfl rfl)
        obtain ⟨u, hu, hu'⟩ := (hd _ _).1 (h4 1 _ _ rfl rfl)
        have ⟨h5, h6⟩ := (bare_some true p t).1 ht
        have ⟨h7, h8⟩ := (bare_some true q u).1 hu
        exact ⟨p, q, t, u, rfl, h5, h7, h6, h8, ht', hu', h2⟩
  · rintro ⟨p, q, t, u, h1, h2, h3, h4, h5, h6, h7, h8⟩
    have : (pieces s).mapM (toDate w) = .ok [some a, some b] := by
      rw [pieces, h1]
      simp only [List.map_cons, List.map_nil, (bare_some true p t).2 ⟨h2, h4⟩, (bare_some true q u).2 ⟨h3, h5⟩]
      simp only [resMapM_cons, toDate, h6, h7, List.mapM_nil]
      rfl
    rw [this]
    exact (ho _).2 ⟨rfl, h8⟩

example : parse sampleWorld "time_range" .timeRange "20000101|20001231".toList = .ok (.dates 20000101 20001231) := by decide
example : parse sampleWorld "time_range" .timeRange "20001231|20000101".toList = .error .definitionValidation := by decide

/-- **C56 (types)**: for every parameter and every string, a value that is taken is of the type the parameter declares. -/
theorem C56_typed {D : Type} (w : World D) (name : String) (kind : Kind) (s : Text) (v : Val D)
    (h : parse w name kind s = .ok v) : Typed w kind v := by
  cases kind with
  | boolean =>
    rcases (C56_boolean w name s).2.2 with h' | h' | h' <;> rw [h'] at h
    · injection h with h; exact ⟨_, h.symm⟩
    · injection h with h; exact ⟨_, h.symm⟩
    · cases h
  | option valid n =>
    rcases ((C56_option w name valid n s).1 v).1 h with ⟨h1, h2, _⟩ | ⟨o, h1, h2, _⟩
    · exact .inl ⟨h1, h2⟩
    · exact .inr ⟨o, h1, h2⟩
  | format valid =>
    rcases (parseOption_ok valid false (oldFormat s) v).1 h with ⟨_, h2, _⟩ | ⟨o, h1, h2, _⟩
    · cases h2
    · exact ⟨o, h1, h2⟩
  | text n g =>
    rcases ((C56_text w name n g s).1 v).1 h with ⟨h1, h2, _⟩ | ⟨t, h1, _, _, h2⟩
    · exact .inl ⟨h1, h2⟩
    · exact .inr ⟨t, h1, h2⟩
  | integers =>
    simp only [parse, parseIntegers] at h
    split at h
    · injection h with h; exact .inl h.symm
    · split at h
      · cases hm : (pieces s).mapM toInteger with
        | error e => rw [hm] at h; cases h
        | ok r => rw [hm] at h; injection h with h; exact .inr ⟨r, h.symm⟩
      · cases h
  | levelRange =>
    simp only [parse, parseLevelRange] at h
    split at h
    · injection h with h; exact h.symm
    · cases h
  | timeRange =>
    simp only [parse, parseTimeRange] at h
    cases hm : (pieces s).mapM (toDate w) with
    | error e => rw [hm] at h; cases h
    | ok ds =>
      rw [hm] at h
      have h : orderedDates w ds = .ok v := h
      unfold orderedDates at h
      split at h
      · injection h with h; exact .inl h.symm
      · split at h
        · rename_i hle
          injection h with h
          exact .inr ⟨_, _, h.symm, hle⟩
        · cases h
      · cases h
  | grouping =>
    simp only [parse, parseGrouping] at h
    split at h
    · injection h with h; exact .inl h.symm
    · cases hg : groupElements (pieces s) with
      | error e => rw [hg] at h; cases h
      | ok ws =>
        rw [hg] at h
        dsimp only at h
        split at h
        · rename_i hv
          injection h with h
          rw [finalGroups] at h
          split at h
          · exact .inr (.inl h.symm)
          · rename_i hne
            refine .inr (.inr ⟨ws, h.symm, ?_⟩)
            simp only [validGroups, Bool.or_eq_true, beq_iff_eq, List.all_eq_true, List.contains_eq_mem, List.mem_cons,
              List.not_mem_nil, or_false, decide_eq_true_eq] at hv
            rcases hv with (hv | hv) | hv
            · exact absurd hv hne
            · exact .inl hv
            · exact .inr hv
        · cases h
  | slice =>
    simp only [parse, parseSlice] at h
    split at h
    · injection h with h; exact .inl h.symm
    · split at h
      · injection h with h; exact .inr h.symm
      · cases h
  | region =>
    simp only [parse, parseRegion] at h
    cases hb : bare true s with
    | none => rw [hb] at h; injection h with h; exact .inl h.symm
    | some t =>
      rw [hb] at h
      dsimp only at h
      cases hm : (split ',' t).mapM regionEntry with
      | error e => rw [hm] at h; cases h
      | ok es =>
        rw [hm] at h
        refine .inr (region_ok es v ?_ h)
        have h1 := ((resMapM_ok_iff _ _ _).1 hm).1
        have h2 := (split_joined ',' t).2.1
        intro hes
        rw [hes] at h1
        exact h2 (List.length_eq_zero_iff.1 h1)
  | crs =>
    simp only [parse, parseCrs] at h
    cases hb : bare true s with
    | none => rw [hb] at h; injection h with h; exact .inl h.symm
    | some t =>
      rw [hb] at h
      dsimp only at h
      cases hi : toInt t with
      | none => rw [hi] at h; cases h
      | some i =>
        rw [hi] at h
        dsimp only at h
        cases he : w.epsg i with
        | error e => rw [he] at h; cases h
        | ok u => rw [he] at h; injection h with h; exact .inr ⟨i, h.symm, he⟩
  | never =>
    simp only [parse] at h
    cases hb : bare true s with
    | none => rw [hb] at h; injection h with h; exact h.symm
    | some t => rw [hb] at h; cases h
  | regridOptions => cases h
  | regridDestination => cases h
  | outside =>
    simp only [parse] at h
    cases hw : w.outside name s with
    | error e => rw [hw] at h; cases h
    | ok u => rw [hw] at h; injection h with h; exact h.symm

/-- **C56, partial (rejection)**: for every string, the parameters other than the five below that refuse it do so with a
definition error.  Missing: `C56_rejection_counterexample`. -/
theorem C56_rejection_partial {D : Type} (w : World D) (name : String) (kind : Kind) (s : Text) (e : PyErr)
    (hk : readable kind = true) (h1 : kind ≠ .integers) (h2 : kind ≠ .timeRange) (h3 : kind ≠ .region) (h4 : kind ≠ .crs)
    (h : parse w name kind s = .error e) : e = .definitionValidation := by
  cases kind with
  | boolean =>
    rcases (C56_boolean w name s).2.2 with h' | h' | h' <;> rw [h'] at h
    · cases h
    · cases h
    · injection h with h; exact h.symm
  | option valid n => exact (C56_option w name valid n s).2 e h
  | format valid => exact (C56_option w name valid false (oldFormat s)).2 e h
  | text n g => exact (C56_text w name n g s).2 e h
  | integers => exact absurd rfl h1
  | levelRange =>
    simp only [parse, parseLevelRange] at h
    split at h
    · cases h
    · injection h with h; exact h.symm
  | timeRange => exact absurd rfl h2
  | grouping =>
    simp only [parse, parseGrouping] at h
    split at h
    · cases h
    · cases hg : groupElements (pieces s) with
      | error e' =>
        rw [hg] at h
        injection h with h
        subst h
        simp only [groupElements] at hg
        split at hg
        · split at hg
          · injection hg with hg; exact hg.symm
          · cases hg
        · injection hg with hg; exact hg.symm
      | ok ws =>
        rw [hg] at h
        dsimp only at h
        split at h
        · cases h
        · injection h with h; exact h.symm
  | slice =>
    simp only [parse, parseSlice] at h
    split at h
    · cases h
    · split at h
      · cases h
      · injection h with h; exact h.symm
  | region => exact absurd rfl h3
  | crs => exact absurd rfl h4
  | never =>
    simp only [parse] at h
    cases hb : bare true s with
    | none => rw [hb] at h; cases h
    | some t => rw [hb] at h; injection h with h; exact h.symm
  | regridOptions => cases hk
  | regridDestination => cases hk
  | outside => cases hk

example : parse sampleWorld "level_range" .levelRange "abc".toList = .error .definitionValidation := by decide

/-- **C56, counterexample (rejection)**: other exceptions come out for strings that are no integers beside null, no
dates, no regions, no codes, and for the options of regridding whatever the string. -/
theorem C56_rejection_counterexample :
    parse sampleWorld "geom_select_uid" .integers "1|none".toList = .error .typeError
    ∧ parse sampleWorld "time_range" .timeRange "soon|later".toList = .error .assertionError
    ∧ parse sampleWorld "time_region" .region "month".toList = .error .valueError
    ∧ parse sampleWorld "output_crs" .crs "wgs84".toList = .error .valueError
    ∧ (∀ s, parse sampleWorld "regrid_options" .regridOptions s = .error .attributeError)
    ∧ ∀ s, parse sampleWorld "regrid_destination" .regridDestination s = .error .keyError :=
  ⟨by decide, by decide, by decide, by decide, fun _ => rfl, fun _ => rfl⟩

/-- **C56, partial (null)**: for every string and every parameter that can be given by one, except those that keep the
case of their text: the value is null exactly when the parameter is nullable and the string is `none` in any case with
any blanks around it.  Those that keep the case want it in lower case (`C56_text`, `C56_null_counterexample`). -/
theorem C56_null_partial {D : Type} (w : World D) (name : String) (kind : Kind) (s : Text) (hr : readable kind = true)
    (hk : keepsCase kind = false) :
    (parse w name kind s = .ok .null ↔ nullable kind = true ∧ Clean s "none".toList)
    ∧ (Clean s "none".toList → nullable kind = false → parse w name kind s = .error .definitionValidation) := by
  cases kind with
  | boolean =>
    refine ⟨⟨fun h => ?_, fun h => absurd h.1 (by simp [nullable])⟩, fun h _ => ?_⟩
    · obtain ⟨b, hb⟩ := C56_typed w name .boolean s _ h; cases hb
    · simp only [parse, parseBoolean, (bare_none true s).2 h, Option.bind_none]; rfl
  | option valid n =>
    refine ⟨?_, fun h hn => ?_⟩
    · rw [(C56_option w name valid n s).1]
      simp [nullable]
    · simp only [nullable] at hn
      simp only [parse, parseOption, (bare_none true s).2 h, hn]; rfl
  | format valid =>
    refine ⟨⟨fun h => ?_, fun h => absurd h.1 (by simp [nullable])⟩, fun h _ => ?_⟩
    · obtain ⟨b, _, hb⟩ := C56_typed w name (.format valid) s _ h; cases hb
    · have hl : lower (lower s) = lower s := by
        simp only [lower, List.map_map]
        refine List.map_congr_left fun c _ => ?_
        exact lower_twice c
      have hold : oldFormat s = lower s := by
        simp only [oldFormat]
        by_cases h1 : lower s = "csv+".toList
        · exfalso
          have := (trimmed_iff _ _).1 h
          rw [h1] at this
          exact absurd this (by decide)
        · rw [if_neg h1]
          by_cases h2 : lower s = "numpy".toList
          · exfalso
            have := (trimmed_iff _ _).1 h
            rw [h2] at this
            exact absurd this (by decide)
          · rw [if_neg h2]
      have : bare true (oldFormat s) = none := (bare_none true _).2 (by rw [hold]; simp only [if_true]; rw [hl]; exact h)
      simp only [parse, parseOption, this]; rfl
  | text n g => cases hk
  | integers =>
    simp only [parse, parseIntegers, nullable, true_and]
    refine ⟨?_, fun _ h => by cases h⟩
    rw [← pieces_single]
    by_cases h1 : pieces s = [none]
    · rw [if_pos h1]; simp [h1]
    · rw [if_neg h1]
      simp only [h1, iff_false]
      split
      · cases (pieces s).mapM toInteger <;> simp [Except.map]
      · simp
  | levelRange =>
    simp only [parse, parseLevelRange, nullable, true_and]
    refine ⟨?_, fun _ h => by cases h⟩
    rw [← pieces_single]
    by_cases h1 : pieces s = [none]
    · rw [if_pos h1]; simp [h1]
    · rw [if_neg h1]; simp [h1]
  | timeRange =>
    simp only [parse, parseTimeRange, nullable, true_and]
    refine ⟨?_, fun _ h => by cases h⟩
    rw [← pieces_single]
    constructor
    · intro h
      cases hm : (pieces s).mapM (toDate w) with
      | error e => rw [hm] at h; cases h
      | ok ds =>
        rw [hm] at h
        have h : orderedDates w ds = .ok .null := h
        unfold orderedDates at h
        split at h
        · obtain ⟨h1, h2⟩ := (resMapM_ok_iff _ _ _).1 hm
          match hp : pieces s, h1 with
          | [p], _ =>
            rw [hp] at h2
            have := h2 0 p none rfl rfl
            cases p with
            | none => rfl
            | some t =>
              simp only [toDate] at this
              cases hst : w.strptime t with
              | none => rw [hst] at this; cases this
              | some d => rw [hst] at this; cases this
        · split at h <;> cases h
        · cases h
    · intro h
      rw [h]
      rfl
  | grouping =>
    simp only [parse, parseGrouping, nullable, true_and]
    refine ⟨?_, fun _ h => by cases h⟩
    rw [← pieces_single]
    by_cases h1 : pieces s = [none]
    · rw [if_pos h1]; simp [h1]
    · rw [if_neg h1]
      simp only [h1, iff_false]
      cases hg : groupElements (pieces s) with
      | error e => simp
      | ok ws =>
        dsimp only
        split
        · rw [finalGroups]; split <;> simp
        · simp
  | slice =>
    simp only [parse, parseSlice, nullable, true_and]
    refine ⟨?_, fun _ h => by cases h⟩
    rw [← pieces_single]
    by_cases h1 : pieces s = [none]
    · rw [if_pos h1]; simp [h1]
    · rw [if_neg h1]
      simp only [h1, iff_false]
      split <;> simp
  | region =>
    refine ⟨⟨fun h => ?_, fun h => ?_⟩, fun _ h => by cases h⟩
    · refine ⟨rfl, ?_⟩
      simp only [parse, parseRegion] at h
      cases hb : bare true s with
      | none => exact (bare_none true s).1 hb
      | some t =>
        rw [hb] at h
        dsimp only at h
        cases hm : (split ',' t).mapM regionEntry with
        | error e => rw [hm] at h; cases h
        | ok es =>
          rw [hm] at h
          obtain ⟨m, y, hv, _⟩ := region_ok es _ (by
            have h1 := ((resMapM_ok_iff _ _ _).1 hm).1
            have h2 := (split_joined ',' t).2.1
            intro hes
            rw [hes] at h1
            exact h2 (List.length_eq_zero_iff.1 h1)) h
          cases hv
    · simp only [parse, parseRegion, (bare_none true s).2 h.2]
  | crs =>
    refine ⟨⟨fun h => ?_, fun h => ?_⟩, fun _ h => by cases h⟩
    · refine ⟨rfl, ?_⟩
      simp only [parse, parseCrs] at h
      cases hb : bare true s with
      | none => exact (bare_none true s).1 hb
      | some t =>
        rw [hb] at h
        dsimp only at h
        cases hi : toInt t with
        | none => rw [hi] at h; cases h
        | some i =>
          rw [hi] at h
          dsimp only at h
          cases he : w.epsg i with
          | error e => rw [he] at h; cases h
          | ok u => rw [he] at h; cases h
    · simp only [parse, parseCrs, (bare_none true s).2 h.2]
  | never =>
    refine ⟨⟨fun h => ?_, fun h => ?_⟩, fun _ h => by cases h⟩
    · refine ⟨rfl, ?_⟩
      simp only [parse] at h
      cases hb : bare true s with
      | none => exact (bare_none true s).1 hb
      | some t => rw [hb] at h; cases h
    · simp only [parse, (bare_none true s).2 h.2]
  | regridOptions => cases hr
  | regridDestination => cases hr
  | outside => cases hr

example : parse sampleWorld "time_range" .timeRange " None".toList = .ok .null := by decide
example : parse sampleWorld "melted" .boolean " None".toList = .error .definitionValidation := by decide

/-- **C56, counterexample (null)**: `None` is a name of a geometry identifier, not null. -/
theorem C56_null_counterexample :
    parse sampleWorld "geom_uid" (.text true .free) "None".toList = .ok (.text "None".toList) := by decide

/-- **C56 (time regions)**: for every string, a time region is a pair of lists of integers (for months and for years, either
may be missing) exactly when the string in lower case without the blanks around it is not `none` and, split at commas,
has only pieces `key~values` with the keys `month` and `year`, the values being integers separated by bars, and the lists
are those of the last piece with each key. -/
theorem C56_region {D : Type} (w : World D) (name : String) (s : Text) (m y : Option (List Int)) :
    parse w name .region s = .ok (.region m y) ↔
      ∃ (t : Text) (es : List (Text × List Int)), Clean s t ∧ t ≠ "none".toList ∧ es.length = (split ',' t).length
        ∧ (∀ (i : Nat) p e, (split ',' t)[i]? = some p → es[i]? = some e → RegionPiece p e)
        ∧ (∀ e ∈ es, e.1 = "month".toList ∨ e.1 = "year".toList)
        ∧ LastWith "month".toList es m ∧ LastWith "year".toList es y := by
  simp only [parse, parseRegion]
  have hlast : ∀ key es v, LastWith key es v ↔ lastOf key es = v := lastWith_iff
  have hreg : ∀ es : List (Text × List Int), (region es : Res (Val D)) = .ok (.region m y) ↔
      (∀ e ∈ es, e.1 = "month".toList ∨ e.1 = "year".toList) ∧ lastOf "month".toList es = m ∧ lastOf "year".toList es = y := by
    intro es
    unfold region
    by_cases ha : es.all (fun e => e.1 == "month".toList || e.1 == "year".toList) = true
    · rw [if_pos ha]
      have : ∀ e ∈ es, e.1 = "month".toList ∨ e.1 = "year".toList := by simpa using ha
      simp only [Except.ok.injEq, Val.region.injEq]
      exact ⟨fun h => ⟨this, h⟩, fun h => h.2⟩
    · rw [if_neg ha]
      constructor
      · intro h; cases h
      · intro h; exact absurd (by simpa using h.1) ha
  constructor
  · intro h
    cases hb : bare true s with
    | none => rw [hb] at h; cases h
    | some t =>
      rw [hb] at h
      dsimp only at h
      obtain ⟨hc, hn⟩ := (bare_some true s t).1 hb
      cases hes : (split ',' t).mapM regionEntry with
      | error e => rw [hes] at h; cases h
      | ok es =>
        rw [hes] at h
        obtain ⟨hl, hg⟩ := (resMapM_ok_iff _ _ _).1 hes
        obtain ⟨h1, h2, h3⟩ := (hreg es).1 h
        exact ⟨t, es, hc, hn, hl.symm, fun i p e hp he => (regionEntry_iff p e).1 (hg i p e hp he), h1,
          (hlast _ _ _).2 h2, (hlast _ _ _).2 h3⟩
  · rintro ⟨t, es, hc, hn, hl, hg, h1, h2, h3⟩
    rw [(bare_some true s t).2 ⟨hc, hn⟩]
    have : (split ',' t).mapM regionEntry = .ok es :=
      (resMapM_ok_iff _ _ _).2 ⟨hl.symm, fun i p e hp he => (regionEntry_iff p e).2 (hg i p e hp he)⟩
    dsimp only
    rw [this]
    exact (hreg es).2 ⟨h1, (hlast _ _ _).1 h2, (hlast _ _ _).1 h3⟩

example : parse sampleWorld "time_region" .region "month~6|7,year~2001".toList = .ok (.region (some [6, 7]) (some [2001])) := by
  decide

/-- **C56, counterexample (strings that should be taken)**: two numbers are refused as a level range, a number as a search
radius multiplier, and the old name of an output format with a blank before it. -/
theorem C56_refused_counterexample :
    parse sampleWorld "level_range" .levelRange "1|2".toList = .error .definitionValidation
    ∧ parse sampleWorld "search_radius_mult" .never "2.0".toList = .error .definitionValidation
    ∧ parse sampleWorld "output_format" (.format ["ocgis", "nc"]) "numpy".toList = .ok (.text "ocgis".toList)
    ∧ parse sampleWorld "output_format" (.format ["ocgis", "nc"]) " numpy".toList = .error .definitionValidation := by
  decide

/-- **C56, counterexample (strings that should be refused)**: a repeated group, two flags of which one is dropped, a flag
without seasons, six slices where there must be five, and month numbers that do not exist. -/
theorem C56_taken_counterexample :
    parse sampleWorld "calc_grouping" .grouping "year|year".toList = .ok (.words ["year".toList, "year".toList])
    ∧ parse sampleWorld "calc_grouping" .grouping "unique|year".toList = .ok (.words ["year".toList])
    ∧ parse sampleWorld "calc_grouping" .grouping "unique".toList = .ok (.words ["unique".toList])
    ∧ parse sampleWorld "slice" .slice "none|none|none|none|none|none".toList = .ok .allSlices
    ∧ parse sampleWorld "time_region" .region "month~13".toList = .ok (.region (some [13]) none) := by
  decide

/-! ## Queries -/

/-- **C56 (unknown names)**: a query with a name that is neither a parameter nor one of those that describe datasets is
rejected, whatever else it holds; with a `KeyError` if the datasets and the names before it are accepted. -/
theorem C56_unknown {D : Type} (w : World D) (formats : List String) (q : Query) (i : Nat) (name : String) (s : Text)
    (rest : List Text) (hq : q[i]? = some (name, s :: rest)) (h1 : name ≠ "dataset")
    (h2 : (table formats).lookup name = none) (h3 : name ∉ datasetKeys) :
    (∃ e, getOperations w formats q = .error e)
    ∧ (∀ ds, datasetFromQuery w q = .ok ds →
      (∀ (j : Nat), j < i → ∃ n t ts v, q[j]? = some (n, t :: ts) ∧ parameterFromQuery w formats q n t = .ok v) →
      getOperations w formats q = .error .keyError) := by
  have hu := parameter_unknown w formats q name s h1 h2 (by simpa using h3)
  constructor
  · rw [getOperations]
    cases hd : datasetFromQuery w q with
    | error e => exact ⟨e, rfl⟩
    | ok ds =>
      dsimp only [bind, Except.bind]
      cases hm : q.mapM (entryFromQuery w formats q) with
      | error e => exact ⟨e, rfl⟩
      | ok vs =>
        exfalso
        obtain ⟨hl, hg⟩ := (resMapM_ok_iff _ _ _).1 hm
        have hi := (List.getElem?_eq_some_iff.1 hq).1
        have := hg i _ vs[i] hq (by simp [hl ▸ hi])
        simp only [entryFromQuery, List.head?_cons, hu, Except.map] at this
        cases this
  · intro ds hd hbefore
    rw [getOperations, hd]
    dsimp only [bind, Except.bind]
    have : q.mapM (entryFromQuery w formats q) = .error .keyError := by
      rw [resMapM_error_iff]
      refine ⟨i, _, hq, by simp only [entryFromQuery, List.head?_cons, hu]; rfl, ?_⟩
      intro j hj
      obtain ⟨n, t, ts, v, h4, h5⟩ := hbefore j hj
      exact ⟨_, v.map fun v => (n, v), h4, by simp only [entryFromQuery, List.head?_cons, h5]; rfl⟩
    rw [this]

example : getOperations sampleWorld ["nc"] [("uri", ["a.nc".toList]), ("snippett", ["true".toList])] = .error .keyError := by
  decide

/-- **C56 (queries)**: when a query is accepted, every parameter in it has the value that its first string stands for,
and nothing else is handed over. -/
theorem C56_query {D : Type} (w : World D) (formats : List String) (q : Query) (ds : List (List (String × Text)))
    (vs : List (String × Val D)) (h : getOperations w formats q = .ok (ds, vs)) (name : String) (v : Val D) :
    (name, v) ∈ vs ↔ ∃ s rest kind, (name, s :: rest) ∈ q ∧ (table formats).lookup name = some kind
      ∧ parse w name kind s = .ok v := by
  rw [getOperations] at h
  cases hd : datasetFromQuery w q with
  | error e => rw [hd] at h; cases h
  | ok ds' =>
    rw [hd] at h
    dsimp only [bind, Except.bind] at h
    cases hm : q.mapM (entryFromQuery w formats q) with
    | error e => rw [hm] at h; cases h
    | ok rs =>
      rw [hm] at h
      injection h with h
      injection h with h1 h2
      subst h1 h2
      obtain ⟨hl, hg⟩ := (resMapM_ok_iff _ _ _).1 hm
      have hdt : (table formats).lookup "dataset" = none := rfl
      have hpar : ∀ s, (∃ kind, (table formats).lookup name = some kind ∧ parse w name kind s = .ok v)
          ↔ parameterFromQuery w formats q name s = .ok (some v) := by
        intro s
        rw [parameterFromQuery]
        by_cases hn : name = "dataset"
        · rw [if_pos hn, hn, hdt]
          simp only [reduceCtorEq, false_and, exists_false, false_iff]
          cases datasetFromQuery w q <;> simp [Except.map]
        · rw [if_neg hn]
          cases (table formats).lookup name with
          | none => simp only [reduceCtorEq, false_and, exists_false, false_iff]; split <;> simp
          | some kind =>
            simp only [Option.some.injEq, exists_eq_left']
            cases parse w name kind s <;> simp [Except.map]
      rw [List.mem_filterMap]
      constructor
      · rintro ⟨o, ho, he⟩
        have he : o = some (name, v) := he
        subst he
        obtain ⟨i, hi, hri⟩ := List.getElem_of_mem ho
        have hqi : i < q.length := by omega
        have hget := hg i q[i] _ (by simp) (by rw [List.getElem?_eq_getElem hi, hri])
        have hmem : q[i] ∈ q := List.getElem_mem hqi
        generalize q[i] = e at hget hmem
        obtain ⟨n, ss⟩ := e
        cases ss with
        | nil => simp [entryFromQuery] at hget
        | cons s rest =>
          simp only [entryFromQuery, List.head?_cons] at hget
          cases hp : parameterFromQuery w formats q n s with
          | error e => rw [hp] at hget; cases hget
          | ok v' =>
            rw [hp] at hget
            simp only [Except.map, Except.ok.injEq] at hget
            cases v' with
            | none => cases hget
            | some v' =>
              simp only [Option.map_some, Option.some.injEq, Prod.mk.injEq] at hget
              obtain ⟨rfl, rfl⟩ := hget
              obtain ⟨kind, hk⟩ := (hpar s).2 hp
              exact ⟨s, rest, kind, hmem, hk⟩
      · rintro ⟨s, rest, kind, hmem, hk⟩
        have hp := (hpar s).1 ⟨kind, hk⟩
        obtain ⟨i, hi, hqi⟩ := List.getElem_of_mem hmem
        have hir : i < rs.length := by omega
        have hget := hg i q[i] rs[i] (by simp) (by simp)
        rw [hqi] at hget
        simp only [entryFromQuery, List.head?_cons, hp, Except.map, Option.map_some, Except.ok.injEq] at hget
        exact ⟨rs[i], List.getElem_mem hir, hget.symm⟩

example : getOperations sampleWorld ["nc"] [("uri", ["a.nc".toList]), ("snippet", ["t".toList, "f".toList])]
    = .ok ([[("uri", "a.nc".toList)]], [("snippet", .bool true)]) := by
  decide

/-- **C56 (datasets)**: when a query is accepted there is one dataset for each piece of the `uri` string, in order, and it
has the piece at its position of each of the four strings that are present; of several values for a name the first counts. -/
theorem C56_datasets {D : Type} (w : World D) (q : Query) (hq : (q.map Prod.fst).Nodup) (ds : List (List (String × Text)))
    (h : datasetFromQuery w q = .ok ds) :
    ∃ uri others, ("uri", uri :: others) ∈ q ∧ ds.length = (split '|' uri).length
      ∧ ∀ (i : Nat) args, ds[i]? = some args →
        ∀ key value, (key, value) ∈ args ↔ key ∈ ["uri", "variable", "field_name", "rename_variable"]
          ∧ ∃ s others, (key, s :: others) ∈ q ∧ (split '|' s)[i]? = some value := by
  have hfirst : ∀ key s, firstValue q key = some s ↔ ∃ others, (key, s :: others) ∈ q := firstValue_iff q hq
  suffices hs : ∃ uri, firstValue q "uri" = some uri ∧ ds.length = (split '|' uri).length
      ∧ ∀ (i : Nat) args, ds[i]? = some args →
        ∀ key value, (key, value) ∈ args ↔ key ∈ datasetKeys ∧ ∃ s, firstValue q key = some s ∧ (split '|' s)[i]? = some value by
    obtain ⟨uri, h1, h2, h3⟩ := hs
    obtain ⟨others, h1⟩ := (hfirst _ _).1 h1
    refine ⟨uri, others, h1, h2, fun i args hi key value => ?_⟩
    rw [h3 i args hi key value]
    simp only [hfirst, datasetKeys]
    constructor
    · rintro ⟨a, s, ⟨o, b⟩, c⟩; exact ⟨a, s, o, b, c⟩
    · rintro ⟨a, s, o, b, c⟩; exact ⟨a, s, ⟨o, b⟩, c⟩
  rw [datasetFromQuery.eq_def] at h
  cases hu : firstValue q "uri" with
  | none => rw [hu] at h; cases h
  | some uri =>
    rw [hu] at h
    dsimp only at h
    obtain ⟨hl, hg⟩ := (resMapM_ok_iff _ _ _).1 h
    refine ⟨uri, rfl, by simpa using hl.symm, ?_⟩
    intro i args hi key value
    have hlen := (List.getElem?_eq_some_iff.1 hi).1
    have := hg i i args (by rw [List.getElem?_range]; simpa [← hl] using hlen) hi
    cases ha : datasetArgs (datasetStore q) i with
    | error e => rw [ha] at this; cases this
    | ok args' =>
      rw [ha] at this
      simp only [bind, Except.bind] at this
      cases ho : w.openDataset args' with
      | error e => rw [ho] at this; cases this
      | ok u =>
        rw [ho] at this
        have this : args' = args := Except.ok.inj this
        subst this
        rw [datasetArgs] at ha
        obtain ⟨hl', hg'⟩ := (resMapM_ok_iff _ _ _).1 ha
        have hstore : ∀ k ws, (k, ws) ∈ datasetStore q ↔ k ∈ datasetKeys ∧ ∃ s, firstValue q k = some s ∧ split '|' s = ws := by
          intro k ws
          simp only [datasetStore, List.mem_filterMap, Option.map_eq_some_iff, Prod.mk.injEq]
          constructor
          · rintro ⟨k', h1, s, h2, rfl, h3⟩; exact ⟨h1, s, h2, h3⟩
          · rintro ⟨h1, s, h2, h3⟩; exact ⟨k, h1, s, h2, rfl, h3⟩
        have helem : ∀ (j : Nat) e a, (datasetStore q)[j]? = some e → args'[j]? = some a →
            a.1 = e.1 ∧ e.2[i]? = some a.2 := by
          intro j e a h1 h2
          have := hg' j e a h1 h2
          cases hv : e.2[i]? with
          | none => rw [hv] at this; cases this
          | some v => rw [hv] at this; have this := Except.ok.inj this; subst this; exact ⟨rfl, rfl⟩
        constructor
        · intro hmem
          obtain ⟨j, hj, hja⟩ := List.getElem_of_mem hmem
          have hj' : j < (datasetStore q).length := by omega
          obtain ⟨h1, h2⟩ := helem j _ _ (List.getElem?_eq_getElem hj') (by rw [List.getElem?_eq_getElem hj, hja])
          have hm := List.getElem_mem hj'
          generalize (datasetStore q)[j] = e at h1 h2 hm
          obtain ⟨k, ws⟩ := e
          obtain ⟨h3, s, h4, h5⟩ := (hstore k ws).1 hm
          simp only at h1 h2
          subst h1
          exact ⟨h3, s, h4, by rw [h5]; exact h2⟩
        · rintro ⟨h3, s, h4, h5⟩
          have hm := (hstore key (split '|' s)).2 ⟨h3, s, h4, rfl⟩
          obtain ⟨j, hj, hje⟩ := List.getElem_of_mem hm
          have hj' : j < args'.length := by omega
          obtain ⟨h1, h2⟩ := helem j _ _ (by rw [List.getElem?_eq_getElem hj, hje]) (List.getElem?_eq_getElem hj')
          have hma := List.getElem_mem hj'
          generalize args'[j] = a at h1 h2 hma
          obtain ⟨k, v⟩ := a
          simp only at h1 h2
          subst h1
          rw [h5] at h2
          rw [Option.some.inj h2]
          exact hma

example : datasetFromQuery sampleWorld [("uri", ["a.nc|b.nc".toList]), ("variable", ["tas|pr".toList])]
    = .ok [[("uri", "a.nc".toList), ("variable", "tas".toList)], [("uri", "b.nc".toList), ("variable", "pr".toList)]] := by
  decide

example : ([("uri", ["a.nc|b.nc".toList]), ("variable", ["tas|pr".toList])] : Query).map Prod.fst |>.Nodup := by decide

/-- **C56, counterexample (datasets)**: variable names in excess are dropped without notice, and too few raise an
`IndexError`. -/
theorem C56_datasets_counterexample :
    datasetFromQuery sampleWorld [("uri", ["a.nc".toList]), ("variable", ["tas|pr".toList])]
      = .ok [[("uri", "a.nc".toList), ("variable", "tas".toList)]]
    ∧ datasetFromQuery sampleWorld [("uri", ["a.nc|b.nc".toList]), ("variable", ["tas".toList])] = .error .indexError := by
  decide

end Ocgis.Props
