import Verif.Spec.RwgCommand
/-!
# Lemmas for the command `chunked-rwg`
-/
namespace Ocgis.Proofs.Rwg
open Ocgis.Rwg
open Ocgis.Spec

theorem andThen_ok {o : Out} {f : FS → Out} {r : FS} (h : andThen o f = (r, none)) :
    ∃ m, o = (m, none) ∧ f m = (r, none) := by
  obtain ⟨m, e⟩ := o
  cases e with
  | none => exact ⟨m, rfl, h⟩
  | some e => cases h

theorem andThen_inv {I : FS → Prop} {o : Out} {f : FS → Out} (h : I o.1)
    (hf : ∀ m, o = (m, none) → I m → I (f m).1) : I (andThen o f).1 := by
  obtain ⟨m, e⟩ := o
  cases e with
  | none => exact hf m rfl h
  | some e => exact h

theorem put_self (fs : FS) (p : Path) (n : Node) : put fs p n p = some n := if_pos rfl

theorem put_ne {fs : FS} {p q : Path} (n : Node) (h : q ≠ p) : put fs p n q = fs q := if_neg h

/-- Kept by creating and changing files at the allowed paths. -/
def Closed (I : FS → Prop) (W : Path → Prop) : Prop := ∀ fs p c h, I fs → W p → I (put fs p (.file c h))

theorem write_inv {I : FS → Prop} {W : Path → Prop} (hc : Closed I W) {fs : FS} {p : Path} (c : String) (hi : I fs)
    (hw : W p) : I (write fs p c).1 := by
  unfold write
  by_cases h : p ≠ [] ∧ fs p.dropLast = some .dir ∧ fs p ≠ some .dir
  · rw [if_pos h]; exact hc fs p c false hi hw
  · rw [if_neg h]; exact hi

theorem write_ok {fs r : FS} {p : Path} {c : String} (h : write fs p c = (r, none)) :
    r = put fs p (.file c false) ∧ fs p.dropLast = some .dir ∧ p ≠ [] := by
  unfold write at h
  by_cases hp : p ≠ [] ∧ fs p.dropLast = some .dir ∧ fs p ≠ some .dir
  · rw [if_pos hp] at h
    exact ⟨(Prod.mk.inj h).1.symm, hp.2.1, hp.1⟩
  · rw [if_neg hp] at h; cases h

theorem writeAll_inv {I : FS → Prop} {W : Path → Prop} (hc : Closed I W) {wd : Path} :
    ∀ (ns : List String) (_ : ∀ n ∈ ns, W (wd ++ [n])) (fs : FS), I fs → I (writeAll wd fs ns).1
  | [], _, _, hi => hi
  | n :: ns, hw, fs, hi => by
    unfold writeAll
    exact andThen_inv (write_inv hc _ hi (hw n List.mem_cons_self)) fun m _ hm =>
      writeAll_inv hc ns (fun a ha => hw a (List.mem_cons_of_mem _ ha)) m hm

theorem chunkNames_own {o : Opts} {x : Ext} {n : String}
    (hn : n ∈ (List.range x.nfiles).flatMap fun i => chunkNames o.genweights x.live (i + 1)) : OwnName o x n := by
  obtain ⟨i, hi, hm⟩ := List.mem_flatMap.1 hn
  have hi' := List.mem_range.1 hi
  refine .inr (.inr ⟨i + 1, by omega, by omega, ?_⟩)
  unfold chunkNames at hm
  rcases List.mem_append.1 hm with hm | hm
  · rcases List.mem_append.1 hm with hm | hm
    · by_cases hl : x.live (i + 1) = true
      · rw [if_pos hl] at hm
        exact .inr ⟨hl, .inl (List.mem_singleton.1 hm)⟩
      · rw [if_neg hl] at hm; cases hm
    · exact .inl (List.mem_singleton.1 hm)
  · by_cases hl : (o.genweights && x.live (i + 1)) = true
    · rw [if_pos hl] at hm
      rw [Bool.and_eq_true] at hl
      exact .inr ⟨hl.2, .inr ⟨hl.1, List.mem_singleton.1 hm⟩⟩
    · rw [if_neg hl] at hm; cases hm

theorem chunks_inv {I : FS → Prop} {W : Path → Prop} (hc : Closed I W) {o : Opts} {x : Ext} {wd : Path}
    (hw : ∀ n, OwnName o x n → W (wd ++ [n])) {fs : FS} (hi : I fs) : I (writeChunks o x wd fs).1 := by
  unfold writeChunks
  cases x.chunkFail with
  | none =>
    refine writeAll_inv hc _ (fun n hn => hw n ?_) _ hi
    rcases List.mem_append.1 hn with hn | hn
    · exact chunkNames_own hn
    · exact .inl (List.mem_singleton.1 hn)
  | some ke =>
    exact andThen_inv (writeAll_inv hc _ (fun n hn => hw n (chunkNames_own (List.mem_of_mem_take hn))) _ hi) fun m _ hm => hm

theorem subset_inv {I : FS → Prop} {W : Path → Prop} (hc : Closed I W) {o : Opts} {x : Ext} {wd : Option Path}
    (hw : ∀ d, wd = some d → ∀ n, OwnName o x n → W (d ++ [n])) (hp : o.spatial = true → ∀ p, o.subsetPath = some p → W p) {fs : FS}
    (hi : I fs) : I (subsetStep o x wd fs).1 := by
  unfold subsetStep
  by_cases hs : o.spatial = true
  · rw [if_pos hs]
    cases hsp : o.subsetPath with
    | some p => exact andThen_inv (o := may x.subset fs) hi fun m _ hm => write_inv hc _ hm (hp hs p hsp)
    | none =>
      cases hd : wd with
      | none => exact hi
      | some d => exact andThen_inv (o := may x.subset fs) hi fun m _ hm => write_inv hc _ hm (hw d hd _ (.inr (.inl ⟨hs, rfl⟩)))
  · rw [if_neg hs]; exact hi

theorem weight_inv {I : FS → Prop} {W : Path → Prop} (hc : Closed I W) {o : Opts} {x : Ext}
    (hp : ∀ fs, I fs → ∀ p, o.weight = some p → fs p = none → W p) {fs : FS} (hi : I fs) : I (weightStep o x fs).1 := by
  unfold weightStep
  by_cases hg : o.genweights = true
  · rw [if_pos hg]
    cases hw : o.weight with
    | none => exact hi
    | some p =>
      by_cases hf : fs p ≠ none
      · simp only [if_pos hf]; exact hi
      · simp only [if_neg hf]
        exact andThen_inv (o := may x.weights fs) hi fun m hm hm' =>
          write_inv hc _ hm' (hp fs hi p hw (Decidable.not_not.1 hf))
  · rw [if_neg hg]; exact hi

theorem compute_inv {I : FS → Prop} {W : Path → Prop} (hc : Closed I W) {o : Opts} {x : Ext} {n : Option (List Int)}
    {wd : Option Path} (hw : ∀ d, wd = some d → ∀ n, OwnName o x n → W (d ++ [n]))
    (hp : ∀ fs, I fs → ∀ p, o.weight = some p → fs p = none → W p) {fs : FS} (hi : I fs) :
    I (computeStep o x n wd fs).1 := by
  unfold computeStep
  by_cases hs : (!o.spatial && n.isSome) = true
  · rw [if_pos hs]
    cases isOne x n with
    | error e => exact hi
    | ok b =>
      cases b with
      | true => exact weight_inv hc hp hi
      | false =>
        cases hd : wd with
        | none => exact hi
        | some d => exact chunks_inv hc (hw d hd) hi
  · rw [if_neg hs]; exact weight_inv hc hp hi

theorem merge_inv {I : FS → Prop} {W : Path → Prop} (hc : Closed I W) {o : Opts} {x : Ext} {n : Option (List Int)}
    {wd : Option Path} (hp : ∀ fs, I fs → ∀ p, o.weight = some p → fs p = none → W p) {fs : FS} (hi : I fs) :
    I (mergeStep o x n wd fs).1 := by
  unfold mergeStep
  by_cases hs : (o.merge && !o.spatial) = true
  · rw [if_pos hs]
    cases isOne x n with
    | error e => exact hi
    | ok b =>
      cases b with
      | true => exact hi
      | false =>
        cases hw : o.weight with
        | none => exact hi
        | some p =>
          cases hd : wd with
          | none => exact hi
          | some d =>
            by_cases hf : fs p ≠ none
            · simp only [if_pos hf]; exact hi
            · simp only [if_neg hf]
              by_cases hx : fs (d ++ [indexName]) = none
              · simp only [if_pos hx]; exact hi
              · simp only [if_neg hx]
                exact andThen_inv (o := may x.merging fs) hi fun m _ hm =>
                  write_inv hc _ hm (hp fs hi p hw (Decidable.not_not.1 hf))
  · rw [if_neg hs]; exact hi

theorem history_inv {I : FS → Prop} {W : Path → Prop} (hc : Closed I W) {o : Opts} (hp : ∀ p, o.weight = some p → W p)
    {fs : FS} (hi : I fs) : I (historyStep o fs).1 := by
  unfold historyStep
  cases hw : o.weight with
  | none => exact hi
  | some p =>
    cases hf : fs p with
    | none => simp only [hf]; exact hi
    | some nd =>
      cases nd with
      | dir => simp only [hf]; exact hi
      | file c h => simp only [hf]; exact hc fs p c true hi (hp p hw)

theorem remove_inv {I : FS → Prop} (o : Opts) {wd : Option Path}
    (hr : ∀ d, wd = some d → ∀ fs, I fs → I (fun q => if d.isPrefixOf q then none else fs q)) {fs : FS} (hi : I fs) :
    I (removeStep o wd fs).1 := by
  unfold removeStep
  by_cases h : o.persist = true
  · rw [if_pos h]; exact hi
  · rw [if_neg h]
    cases hd : wd with
    | none => exact hi
    | some d =>
      simp only [rmtree]
      by_cases hf : fs d = some .dir
      · rw [if_pos hf]; exact hr d hd fs hi
      · rw [if_neg hf]; exact hi

/-- The weight file is asked for, and something is in its place: the command stops before it touches it. -/
theorem stops {o : Opts} {x : Ext} {n : Option (List Int)} {wd : Option Path} {fs : FS} {p : Path} (hw : o.weight = some p)
    (hf : fs p ≠ none)
    (ha : (o.genweights = true ∧ (o.spatial = true ∨ n = none ∨ isOne x n = .ok true)) ∨
      (o.merge = true ∧ o.spatial = false ∧ isOne x n ≠ .ok true)) :
    (∃ e, computeStep o x n wd fs = (fs, some e)) ∨ ∀ m : FS, m p ≠ none → ∃ e, mergeStep o x n wd m = (m, some e) := by
  have hws : o.genweights = true → ∃ e, weightStep o x fs = (fs, some e) := by
    intro hg
    exact ⟨.ioError, by simp [weightStep, hg, hw, hf]⟩
  rcases ha with ⟨hg, h⟩ | ⟨hm, hs, h⟩
  · refine .inl ?_
    obtain ⟨e, he⟩ := hws hg
    refine ⟨e, ?_⟩
    unfold computeStep
    by_cases hs : (!o.spatial && n.isSome) = true
    · rw [if_pos hs]
      simp only [Bool.and_eq_true, Bool.not_eq_true', Option.isSome_iff_exists] at hs
      obtain ⟨hs, l, hl⟩ := hs
      rcases h with h | h | h
      · rw [h] at hs; cases hs
      · rw [h] at hl; cases hl
      · rw [h]; exact he
    · rw [if_neg hs]; exact he
  · refine .inr fun m hmp => ?_
    unfold mergeStep
    rw [if_pos (by simp [hm, hs])]
    cases ho : isOne x n with
    | error e => exact ⟨e, rfl⟩
    | ok b =>
      cases b with
      | true => exact absurd ho h
      | false =>
        cases wd with
        | none => exact ⟨.typeError, by simp [hw]⟩
        | some d => exact ⟨.ioError, by simp [hw, hmp]⟩

/-- Every step of the command keeps what is closed under writing the allowed files, and removing the working directory. -/
theorem body_inv {I : FS → Prop} {W : Path → Prop} (hc : Closed I W) {o : Opts} {x : Ext} {n : Option (List Int)}
    {wd : Option Path} (hw : ∀ d, wd = some d → ∀ n, OwnName o x n → W (d ++ [n]))
    (hsp : o.spatial = true → ∀ p, o.subsetPath = some p → W p)
    (hp : ∀ fs, I fs → ∀ p, o.weight = some p → fs p = none → W p)
    (hh : ∀ p, o.weight = some p → W p ∨ ((∀ fs, I fs → fs p ≠ none) ∧
      ((o.genweights = true ∧ (o.spatial = true ∨ n = none ∨ isOne x n = .ok true)) ∨
      (o.merge = true ∧ o.spatial = false ∧ isOne x n ≠ .ok true))))
    (hr : ∀ d, wd = some d → ∀ fs, I fs → I (fun q => if d.isPrefixOf q then none else fs q)) {fs : FS} (hi : I fs) :
    I (body o x n wd fs).1 := by
  unfold body
  cases driverOf o.srcType with
  | error e => exact hi
  | ok a =>
    cases driverOf o.dstType with
    | error e => exact hi
    | ok b =>
      refine andThen_inv (o := may x.opening fs) hi fun m1 _ h1 => ?_
      refine andThen_inv (subset_inv hc hw hsp h1) fun m2 _ h2 => ?_
      refine andThen_inv (o := may x.chunker m2) h2 fun m3 _ h3 => ?_
      refine andThen_inv (compute_inv hc hw hp h3) fun m4 e4 h4 => ?_
      refine andThen_inv (merge_inv hc hp h4) fun m5 e5 h5 => ?_
      have hW : ∀ p, o.weight = some p → W p := by
        intro p hpw
        rcases hh p hpw with h | ⟨hne, ha⟩
        · exact h
        · rcases stops (wd := wd) hpw (hne m3 h3) ha with ⟨e, he⟩ | hst
          · rw [he] at e4; cases e4
          · obtain ⟨e, he⟩ := hst m4 (hne m4 h4)
            rw [he] at e5; cases e5
      refine andThen_inv (history_inv hc hW h5) fun m6 _ h6 => ?_
      exact remove_inv o hr h6

theorem makedirs_ok {fs r : FS} {p : Path} {e : Option PyErr} (h : makedirs fs p = (r, e)) :
    (r = fs ∧ ∃ e', e = some e') ∨ (e = none ∧ r = (fun q => if q.isPrefixOf p then some .dir else fs q) ∧
      ∀ q, q <+: p → fs q = none ∨ fs q = some .dir) := by
  unfold makedirs at h
  split at h
  · next hall =>
    refine .inr ⟨(Prod.mk.inj h).2.symm, (Prod.mk.inj h).1.symm, fun q hq => ?_⟩
    have := List.all_eq_true.1 hall q.length (by
      have := hq.length_le
      simp; omega)
    rw [← List.prefix_iff_eq_take.1 hq] at this
    simpa using this
  · exact .inl ⟨(Prod.mk.inj h).1.symm, _, (Prod.mk.inj h).2.symm⟩

/-- What the preparation leaves: nothing has changed and there is an exception, the given directory is used as it is, a temporary
directory is made, or the given directory is made with those above it. -/
theorem prepare_cases {o : Opts} {x : Ext} {n : Option (List Int)} {fs r : FS} {w : Res (Option Path)}
    (h : prepare o x n fs = (r, w)) :
    (r = fs ∧ w = .ok o.wd ∧ (shouldCreate n o.spatial = false ∨ (o.wd.isSome ∧ n = none))) ∨
    (r = fs ∧ ∃ e, w = .error e) ∨
    (shouldCreate n o.spatial = true ∧ o.wd = none ∧ r = put fs x.tmp .dir ∧ (w = .ok (some x.tmp) ∨ ∃ e, w = .error e)) ∨
    (shouldCreate n o.spatial = true ∧ ∃ d, o.wd = some d ∧ n.isSome ∧ fs d = none ∧
      r = (fun q => if q.isPrefixOf d then some .dir else fs q) ∧ (∀ q, q <+: d → fs q = none ∨ fs q = some .dir) ∧
      (w = .ok (some d) ∨ ∃ e, w = .error e)) := by
  unfold prepare at h
  by_cases hc : shouldCreate n o.spatial = true
  · rw [if_pos hc] at h
    have htail : ∀ (f : FS) (d : Path), (if ((o.merge && !o.spatial) || (o.spatial && o.genweights)) = true then
        match o.weight with
        | none => ((f, .error .typeError) : FS × Res (Option Path))
        | some p => if isSubdir d p then (f, .error .valueError) else (f, .ok (some d))
      else (f, .ok (some d))) = (r, w) → r = f ∧ (w = .ok (some d) ∨ ∃ e, w = .error e) := by
      intro f d hh
      split at hh
      · split at hh
        · cases hh; exact ⟨rfl, .inr ⟨_, rfl⟩⟩
        · split at hh
          · cases hh; exact ⟨rfl, .inr ⟨_, rfl⟩⟩
          · cases hh; exact ⟨rfl, .inl rfl⟩
      · cases hh; exact ⟨rfl, .inl rfl⟩
    cases hwd : o.wd with
    | none =>
      simp only [hwd] at h
      obtain ⟨h1, h2⟩ := htail _ _ h
      exact .inr (.inr (.inl ⟨hc, rfl, h1, h2⟩))
    | some d =>
      simp only [hwd] at h
      by_cases hn : n.isSome = true
      · simp only [hn, if_true] at h
        by_cases hd : fs d ≠ none
        · simp only [if_pos hd] at h
          cases h
          exact .inr (.inl ⟨rfl, _, rfl⟩)
        · simp only [if_neg hd] at h
          cases hmk : makedirs fs d with
          | mk m e =>
            rw [hmk] at h
            rcases makedirs_ok hmk with ⟨rfl, e', rfl⟩ | ⟨rfl, hm, hall⟩
            · simp only at h
              cases h
              exact .inr (.inl ⟨rfl, _, rfl⟩)
            · simp only at h
              obtain ⟨h1, h2⟩ := htail _ _ h
              exact .inr (.inr (.inr ⟨hc, d, rfl, hn, Decidable.not_not.1 hd, h1.trans hm, hall, h2⟩))
      · simp only [hn] at h
        obtain ⟨h1, h2⟩ := htail _ _ h
        rcases h2 with h2 | h2
        · refine .inl ⟨h1, h2, .inr ⟨rfl, ?_⟩⟩
          cases n with
          | none => rfl
          | some l => exact absurd rfl hn
        · exact .inr (.inl ⟨h1, h2⟩)
  · rw [if_neg hc] at h
    cases h
    exact .inl ⟨rfl, rfl, .inl (by simpa using hc)⟩

/-- The command is refused at once, or it prepares and goes on. -/
theorem rwg_cases (o : Opts) (x : Ext) (fs : FS) :
    (∃ e, rwg o x fs = (fs, some e)) ∨
    (o.nchunks ≠ some none ∧ (o.merge = true → o.spatial = false → o.weight ≠ none) ∧
      ((∃ r e, prepare o x (o.nchunks.bind id) fs = (r, .error e) ∧ rwg o x fs = (r, some e)) ∨
      (∃ r wd, prepare o x (o.nchunks.bind id) fs = (r, .ok wd) ∧
        rwg o x fs = body o x (o.nchunks.bind id) wd r))) := by
  unfold rwg
  by_cases hn : o.nchunks = some none
  · rw [if_pos hn]; exact .inl ⟨_, rfl⟩
  · rw [if_neg hn]
    by_cases h1 : (o.merge && !o.spatial && o.weight.isNone) = true
    · exact .inl ⟨.valueError, by rw [if_pos h1]⟩
    · by_cases h2 : (o.spatial && o.genweights && o.weight.isNone) = true
      · exact .inl ⟨.valueError, by rw [if_neg h1, if_pos h2]⟩
      · refine .inr ⟨hn, ?_, ?_⟩
        · intro ha hb hc
          rw [ha, hb, hc] at h1
          exact h1 rfl
        · cases hp : prepare o x (o.nchunks.bind id) fs with
          | mk r w =>
            cases w with
            | error e => exact .inl ⟨r, e, rfl, by rw [if_neg h1, if_neg h2]⟩
            | ok wd => exact .inr ⟨r, wd, rfl, by rw [if_neg h1, if_neg h2]⟩

theorem shouldCreate_own {o : Opts} (h : o.nchunks ≠ some none)
    (hm : o.spatial = true ∨ ∀ l, o.nchunks = some (some l) → ∃ i ∈ l, i ≠ 1) :
    shouldCreate (o.nchunks.bind id) o.spatial = true := by
  unfold shouldCreate
  cases hk : o.nchunks with
  | none => simp
  | some l =>
    cases l with
    | none => exact absurd hk h
    | some l =>
      rcases hm with hs | hl
      · simp [hs]
      · obtain ⟨i, hi, hne⟩ := hl l hk
        have : l.all (fun i => i == 1) = false := by
          rw [Bool.eq_false_iff]
          intro hall
          exact hne (by simpa using List.all_eq_true.1 hall i hi)
        simp [this]

theorem isOne_iff {o : Opts} (x : Ext) (h : o.nchunks ≠ some none) :
    isOne x (o.nchunks.bind id) = .ok true ↔ OneChunk o x := by
  unfold isOne OneChunk
  cases hk : o.nchunks with
  | none => simp
  | some l =>
    cases l with
    | none => exact absurd hk h
    | some l => simp

/-- What was asked for, as the steps decide it. -/
theorem asks_iff {o : Opts} {x : Ext} (h : o.nchunks ≠ some none) (ha : AsksWeights o x ∨ AsksMerged o x) :
    (o.genweights = true ∧ (o.spatial = true ∨ o.nchunks.bind id = none ∨ isOne x (o.nchunks.bind id) = .ok true)) ∨
      (o.merge = true ∧ o.spatial = false ∧ isOne x (o.nchunks.bind id) ≠ .ok true) := by
  rcases ha with ⟨hg, hs | hn | h1⟩ | ⟨hm, hs, h1⟩
  · exact .inl ⟨hg, .inl hs⟩
  · exact .inl ⟨hg, .inr (.inl (by rw [hn]; rfl))⟩
  · exact .inl ⟨hg, .inr (.inr ((isOne_iff x h).2 h1))⟩
  · exact .inr ⟨hm, hs, fun hc => h1 ((isOne_iff x h).1 hc)⟩

theorem absent_below {fs : FS} (hfs : ProperFS fs) {d q : Path} (hd : fs d = none) (hq : d <+: q) : fs q = none := by
  cases hfq : fs q with
  | none => rfl
  | some nd =>
    exfalso
    by_cases he : d = q
    · rw [he, hfq] at hd; cases hd
    · rw [hfs.2 d q hq he (by rw [hfq]; exact fun h => by cases h)] at hd; cases hd

theorem common_le (p s : Path) : common p s ≤ p.length ∧ common p s ≤ s.length := by
  induction p generalizing s with
  | nil => simp [common]
  | cons a as ih =>
    cases s with
    | nil => simp [common]
    | cons b bs =>
      simp only [common]
      split
      · have := ih bs
        simp; omega
      · simp

theorem common_take (p s : Path) : p.take (common p s) = s.take (common p s) := by
  induction p generalizing s with
  | nil => simp [common]
  | cons a as ih =>
    cases s with
    | nil => simp [common]
    | cons b bs =>
      simp only [common]
      split
      · next h => simp [h, ih bs]
      · simp

theorem common_prefix {p s : Path} (h : p <+: s) : common p s = p.length := by
  induction p generalizing s with
  | nil => simp [common]
  | cons a as ih =>
    cases s with
    | nil => simp at h
    | cons b bs =>
      rw [List.cons_prefix_cons] at h
      simp [common, h.1, ih h.2]

theorem common_comm (p s : Path) : common p s = common s p := by
  induction p generalizing s with
  | nil => cases s <;> simp [common]
  | cons a as ih =>
    cases s with
    | nil => simp [common]
    | cons b bs =>
      simp only [common]
      by_cases h : a = b
      · simp [h, ih bs]
      · simp [h, Ne.symm h]

/-- Whether finitely many nodes make a file system. -/
def properB (l : List (Path × Node)) : Bool :=
  decide (ofNodes l [] = some .dir) && l.all fun e => (List.range e.1.length).all fun k =>
    decide (ofNodes l (e.1.take k) = some .dir)

theorem proper_of {l : List (Path × Node)} (h : properB l = true) : ProperFS (ofNodes l) := by
  unfold properB at h
  rw [Bool.and_eq_true] at h
  refine ⟨of_decide_eq_true h.1, fun p q hpq hne hq => ?_⟩
  have hmem : ∃ e ∈ l, e.1 = q := by
    unfold ofNodes at hq
    cases hf : l.find? (fun e => decide (e.1 = q)) with
    | none => rw [hf] at hq; exact absurd rfl hq
    | some e =>
      exact ⟨e, List.mem_of_find?_eq_some hf, by simpa using List.find?_some hf⟩
  obtain ⟨e, he, rfl⟩ := hmem
  have h1 := List.all_eq_true.1 h.2 e he
  have hlt : p.length < e.1.length := by
    have h2 := hpq.length_le
    rcases Nat.lt_or_ge p.length e.1.length with h3 | h3
    · exact h3
    · exact absurd (hpq.eq_of_length (by omega)) hne
  have h2 := of_decide_eq_true (List.all_eq_true.1 h1 p.length (List.mem_range.2 hlt))
  rw [← List.prefix_iff_eq_take.1 hpq] at h2
  exact h2

theorem body_ok {o : Opts} {x : Ext} {n : Option (List Int)} {wd : Option Path} {fs r : FS}
    (h : body o x n wd fs = (r, none)) :
    ∃ m1 m2 m3 m4, subsetStep o x wd fs = (m1, none) ∧ computeStep o x n wd m1 = (m2, none) ∧
      mergeStep o x n wd m2 = (m3, none) ∧ historyStep o m3 = (m4, none) ∧ removeStep o wd m4 = (r, none) := by
  unfold body at h
  cases hs : driverOf o.srcType with
  | error e => rw [hs] at h; cases h
  | ok a =>
    cases hd : driverOf o.dstType with
    | error e => rw [hs, hd] at h; cases h
    | ok b =>
      rw [hs, hd] at h
      simp only at h
      obtain ⟨m0, e0, h0⟩ := andThen_ok h
      obtain ⟨m1, e1, h1⟩ := andThen_ok h0
      obtain ⟨m1', e1', h2⟩ := andThen_ok h1
      obtain ⟨m2, e2, h3⟩ := andThen_ok h2
      obtain ⟨m3, e3, h4⟩ := andThen_ok h3
      obtain ⟨m4, e4, h5⟩ := andThen_ok h4
      have q0 : fs = m0 := (Prod.mk.inj e0).1
      have q1 : m1 = m1' := (Prod.mk.inj e1').1
      subst q0 q1
      exact ⟨m1, m2, m3, m4, e1, e2, e3, e4, h5⟩

theorem remove_ok {o : Opts} {wd : Option Path} {fs r : FS} (h : removeStep o wd fs = (r, none)) :
    (o.persist = true ∧ r = fs) ∨
    (o.persist = false ∧ ∃ d, wd = some d ∧ r = fun q => if d.isPrefixOf q then none else fs q) := by
  unfold removeStep at h
  by_cases hp : o.persist = true
  · rw [if_pos hp] at h
    exact .inl ⟨hp, (Prod.mk.inj h).1.symm⟩
  · rw [if_neg hp] at h
    cases wd with
    | none => cases h
    | some d =>
      refine .inr ⟨by simpa using hp, d, rfl, ?_⟩
      simp only [rmtree] at h
      by_cases hf : fs d = some .dir
      · rw [if_pos hf] at h; exact (Prod.mk.inj h).1.symm
      · rw [if_neg hf] at h; cases h

theorem weight_ok {o : Opts} {x : Ext} {fs r : FS} (hg : o.genweights = true) (h : weightStep o x fs = (r, none)) :
    ∃ p, o.weight = some p ∧ r = put fs p (.file "weights" false) ∧ fs p.dropLast = some .dir ∧ fs p = none ∧ p ≠ [] := by
  unfold weightStep at h
  rw [if_pos hg] at h
  cases hw : o.weight with
  | none => rw [hw] at h; cases h
  | some p =>
    rw [hw] at h
    simp only at h
    by_cases hf : fs p ≠ none
    · rw [if_pos hf] at h; cases h
    · rw [if_neg hf] at h
      obtain ⟨m, e, h⟩ := andThen_ok h
      have q0 : fs = m := (Prod.mk.inj e).1
      subst q0
      obtain ⟨h1, h2, h3⟩ := write_ok h
      exact ⟨p, rfl, h1, h2, Decidable.not_not.1 hf, h3⟩

theorem merge_ok {o : Opts} {x : Ext} {n : Option (List Int)} {wd : Option Path} {fs r : FS}
    (h : mergeStep o x n wd fs = (r, none)) :
    (r = fs ∧ (o.merge = false ∨ o.spatial = true ∨ isOne x n = .ok true)) ∨
    (o.merge = true ∧ o.spatial = false ∧ isOne x n = .ok false ∧ ∃ p d, o.weight = some p ∧ wd = some d ∧
      r = put fs p (.file "merged" false) ∧ fs p.dropLast = some .dir ∧ fs p = none ∧ fs (d ++ [indexName]) ≠ none ∧
      p ≠ []) := by
  unfold mergeStep at h
  by_cases hs : (o.merge && !o.spatial) = true
  · rw [if_pos hs] at h
    simp only [Bool.and_eq_true, Bool.not_eq_true'] at hs
    cases ho : isOne x n with
    | error e => rw [ho] at h; cases h
    | ok b =>
      rw [ho] at h
      cases b with
      | true => exact .inl ⟨(Prod.mk.inj h).1.symm, .inr (.inr rfl)⟩
      | false =>
        refine .inr ⟨hs.1, hs.2, rfl, ?_⟩
        cases hw : o.weight with
        | none => rw [hw] at h; cases h
        | some p =>
          cases hd : wd with
          | none => rw [hw, hd] at h; cases h
          | some d =>
            rw [hw, hd] at h
            simp only at h
            by_cases hf : fs p ≠ none
            · rw [if_pos hf] at h; cases h
            · rw [if_neg hf] at h
              by_cases hx : fs (d ++ [indexName]) = none
              · rw [if_pos hx] at h; cases h
              · rw [if_neg hx] at h
                obtain ⟨m, e, h⟩ := andThen_ok h
                have q0 : fs = m := (Prod.mk.inj e).1
                subst q0
                obtain ⟨h1, h2, h3⟩ := write_ok h
                exact ⟨p, d, rfl, rfl, h1, h2, Decidable.not_not.1 hf, hx, h3⟩
  · rw [if_neg hs] at h
    refine .inl ⟨(Prod.mk.inj h).1.symm, ?_⟩
    cases hm : o.merge with
    | false => exact .inl rfl
    | true =>
      rw [hm] at hs
      exact .inr (.inl (by simpa using hs))

theorem history_ok {o : Opts} {fs r : FS} (h : historyStep o fs = (r, none)) :
    (∀ q c b, fs q = some (.file c b) → r q = some (.file c (b || decide (o.weight = some q)))) ∧
    (∀ q, fs q = none → r q = none) ∧ (∀ q, fs q = some .dir → r q = some .dir) := by
  unfold historyStep at h
  cases hw : o.weight with
  | none =>
    rw [hw] at h
    have := (Prod.mk.inj h).1
    subst this
    exact ⟨fun q c b hq => by simp [hq], fun q hq => hq, fun q hq => hq⟩
  | some p =>
    rw [hw] at h
    simp only at h
    cases hf : fs p with
    | none =>
      rw [hf] at h
      have := (Prod.mk.inj h).1
      subst this
      refine ⟨fun q c b hq => ?_, fun q hq => hq, fun q hq => hq⟩
      have : p ≠ q := by rintro rfl; rw [hf] at hq; cases hq
      simp [hq, this]
    | some nd =>
      cases nd with
      | dir => rw [hf] at h; cases h
      | file c' b' =>
        rw [hf] at h
        have := (Prod.mk.inj h).1
        subst this
        refine ⟨fun q c b hq => ?_, fun q hq => ?_, fun q hq => ?_⟩
        · by_cases he : q = p
          · subst he
            rw [hf] at hq
            cases hq
            rw [put_self]; simp
          · rw [put_ne _ he, hq]; simp [Ne.symm he]
        · have he : q ≠ p := by rintro rfl; rw [hf] at hq; cases hq
          rw [put_ne _ he, hq]
        · have he : q ≠ p := by rintro rfl; rw [hf] at hq; cases hq
          rw [put_ne _ he, hq]

theorem isSubdir_iff {wd p : Path} (hd : ".." ∉ wd) :
    isSubdir wd p = true ↔ p <+: wd ∨ ∃ n, p = wd ++ [n] := by
  have hcl := common_le wd p
  have htk := common_take wd p
  unfold isSubdir relpath
  rcases Nat.lt_or_ge (common wd p) p.length with hlt | hge
  · -- the weight file is not above the working directory
    obtain ⟨k, hk⟩ : ∃ k, p.length - common wd p = k + 1 := ⟨p.length - common wd p - 1, by omega⟩
    rw [hk, List.replicate_succ]
    have hnp : ¬ p <+: wd := by
      intro hpre
      have := common_prefix hpre
      rw [common_comm] at this
      omega
    constructor
    · intro h
      refine .inr ?_
      cases k with
      | succ k => simp [List.replicate_succ] at h
      | zero =>
        cases hdr : wd.drop (common wd p) with
        | cons a as => rw [hdr] at h; simp at h
        | nil =>
          have hlen : wd.length = common wd p := by
            have := congrArg List.length hdr
            simp at this; omega
          have hw : wd = p.take wd.length := by
            rw [← hlen, List.take_length] at htk
            exact htk
          have hl1 : p.length = wd.length + 1 := by omega
          obtain ⟨a, ha⟩ : ∃ a, p.drop wd.length = [a] := by
            cases hpd : p.drop wd.length with
            | nil => have := congrArg List.length hpd; simp at this; omega
            | cons a t =>
              cases t with
              | nil => exact ⟨a, rfl⟩
              | cons b t => have := congrArg List.length hpd; simp at this; omega
          refine ⟨a, ?_⟩
          rw [← ha]
          have := List.take_append_drop wd.length p
          rw [← hw] at this
          exact this.symm
    · rintro (h | ⟨n, rfl⟩)
      · exact absurd h hnp
      · have hc : common wd (wd ++ [n]) = wd.length := common_prefix (List.prefix_append _ _)
        rw [hc] at hk ⊢
        simp at hk
        subst hk
        simp
  · have hpre : p <+: wd := by
      have h1 : common wd p = p.length := by omega
      rw [h1, List.take_length] at htk
      rw [List.prefix_iff_eq_take]
      exact htk.symm
    have h0 : p.length - common wd p = 0 := by omega
    rw [h0]
    constructor
    · exact fun _ => .inl hpre
    · intro _
      simp only [List.replicate_zero, List.nil_append]
      split
      · next h =>
        exact absurd (List.mem_of_mem_drop (i := common wd p) (by rw [h]; exact List.mem_cons_self)) hd
      · rfl

theorem isSubdir_self (d : Path) : isSubdir d d = true := by
  have hc : common d d = d.length := common_prefix (List.prefix_refl d)
  simp [isSubdir, relpath, hc]

theorem isSubdir_child (d : Path) (n : String) : isSubdir d (d ++ [n]) = true := by
  have hc : common d (d ++ [n]) = d.length := common_prefix (List.prefix_append _ _)
  simp [isSubdir, relpath, hc]

/-- Nothing below the working directory is a directory. -/
def Flat (d : Path) (fs : FS) : Prop := ∀ q, d <+: q → q ≠ d → fs q ≠ some .dir

theorem flat_closed (d : Path) : Closed (Flat d) (fun _ => True) := by
  intro fs p c h hi _ q hq hne
  by_cases he : q = p
  · rw [he, put_self]; exact fun h => by cases h
  · rw [put_ne _ he]; exact hi q hq hne

theorem not_below {d p : Path} {m : FS} (hf : Flat d m) (hdir : m p.dropLast = some .dir)
    (hs : isSubdir d p = false) : ¬ d <+: p := by
  rintro ⟨t, rfl⟩
  cases t with
  | nil => rw [List.append_nil, isSubdir_self] at hs; cases hs
  | cons a t =>
    cases t with
    | nil => rw [isSubdir_child] at hs; cases hs
    | cons b t =>
      rw [List.dropLast_append_of_ne_nil (by simp)] at hdir
      refine hf _ (List.prefix_append _ _) ?_ hdir
      intro he
      have := congrArg List.length he
      simp at this

theorem prepare_checked {o : Opts} {x : Ext} {n : Option (List Int)} {fs r : FS} {d : Path}
    (h : prepare o x n fs = (r, .ok (some d))) (hc : shouldCreate n o.spatial = true)
    (hf : ((o.merge && !o.spatial) || (o.spatial && o.genweights)) = true) :
    ∃ p, o.weight = some p ∧ isSubdir d p = false := by
  unfold prepare at h
  rw [if_pos hc] at h
  have htail : ∀ (f : FS) (d' : Path), (if ((o.merge && !o.spatial) || (o.spatial && o.genweights)) = true then
      match o.weight with
      | none => ((f, .error .typeError) : FS × Res (Option Path))
      | some p => if isSubdir d' p then (f, .error .valueError) else (f, .ok (some d'))
    else (f, .ok (some d'))) = (r, .ok (some d)) → ∃ p, o.weight = some p ∧ isSubdir d p = false := by
    intro f d' hh
    rw [if_pos hf] at hh
    cases hw : o.weight with
    | none => rw [hw] at hh; cases hh
    | some p =>
      rw [hw] at hh
      simp only at hh
      by_cases hs : isSubdir d' p = true
      · rw [if_pos hs] at hh; cases hh
      · rw [if_neg hs] at hh
        cases hh
        exact ⟨p, rfl, by simpa using hs⟩
  cases hwd : o.wd with
  | none =>
    simp only [hwd] at h
    exact htail _ _ h
  | some d' =>
    simp only [hwd] at h
    by_cases hn : n.isSome = true
    · simp only [hn, if_true] at h
      by_cases hd : fs d' ≠ none
      · simp only [if_pos hd] at h
        cases h
      · simp only [if_neg hd] at h
        cases hmk : makedirs fs d' with
        | mk m e =>
          rw [hmk] at h
          cases e with
          | some e => simp only at h; cases h
          | none =>
            simp only at h
            exact htail _ _ h
    · simp only [hn] at h
      exact htail _ _ h

theorem compute_weight {o : Opts} {x : Ext} {n : Option (List Int)} {wd : Option Path} {fs : FS}
    (h : o.spatial = true ∨ n = none ∨ isOne x n = .ok true) : computeStep o x n wd fs = weightStep o x fs := by
  unfold computeStep
  by_cases hs : (!o.spatial && n.isSome) = true
  · rw [if_pos hs]
    simp only [Bool.and_eq_true, Bool.not_eq_true', Option.isSome_iff_exists] at hs
    obtain ⟨hs, l, hl⟩ := hs
    rcases h with h | h | h
    · rw [h] at hs; cases hs
    · rw [h] at hl; cases hl
    · rw [h]
  · rw [if_neg hs]

theorem compute_chunks {o : Opts} {x : Ext} {l : List Int} {wd : Option Path} {fs r : FS}
    (hs : o.spatial = false) (hl : isOne x (some l) = .ok false) (h : computeStep o x (some l) wd fs = (r, none)) :
    ∃ d, wd = some d ∧ writeChunks o x d fs = (r, none) := by
  unfold computeStep at h
  rw [if_pos (by simp [hs]), hl] at h
  cases wd with
  | none => cases h
  | some d => exact ⟨d, rfl, h⟩

/-- There is a file. -/
def IsFile (p : Path) (fs : FS) : Prop := ∃ c b, fs p = some (.file c b)

theorem isFile_closed (p : Path) : Closed (IsFile p) (fun _ => True) := by
  intro fs q c h ⟨c', b', hi⟩ _
  by_cases he : p = q
  · exact ⟨c, h, by rw [he, put_self]⟩
  · exact ⟨c', b', by rw [put_ne _ he]; exact hi⟩

theorem writeAll_files {wd : Path} : ∀ {ns : List String} {fs r : FS}, writeAll wd fs ns = (r, none) →
    ∀ n ∈ ns, IsFile (wd ++ [n]) r
  | [], _, _, _, n, hn => by cases hn
  | a :: ns, fs, r, h, n, hn => by
    unfold writeAll at h
    obtain ⟨m, e, h'⟩ := andThen_ok h
    rcases List.mem_cons.1 hn with rfl | hn
    · have hm : IsFile (wd ++ [n]) m := by
        rw [(write_ok e).1]
        exact ⟨_, _, put_self _ _ _⟩
      have := writeAll_inv (isFile_closed (wd ++ [n])) (wd := wd) ns (fun _ _ => trivial) m hm
      rw [h'] at this
      exact this
    · exact writeAll_files h' n hn

end Ocgis.Proofs.Rwg
