import Verif.Proofs.RwgCommand
/-!
# C107: the files and directories of the command `chunked-rwg`

A weight generation works in a directory of its own, which it removes unless told otherwise, and leaves the weight file where it
was asked for.  It should touch nothing else, whatever fails on the way.
-/
namespace Ocgis.Props
open Ocgis.Rwg
open Ocgis.Spec
open Ocgis.Proofs.Rwg

/-- Whatever the options and whatever fails: the only paths with another content afterwards are the files of the command's own names in the working directory,
what is removed with that directory, the path of the weights, the path of the subset, and directories that have been made above the working directory. -/
theorem C107_touches (o : Opts) (x : Ext) (fs : FS) (q : Path) (hq : (rwg o x fs).1 q ≠ fs q) :
    (∃ n, OwnName o x n ∧ q = workDir o x ++ [n]) ∨ (workDir o x <+: q ∧ (rwg o x fs).1 q = none) ∨ q = workDir o x ∨
      o.weight = some q ∨ (o.spatial = true ∧ o.subsetPath = some q) ∨
      (q <+: workDir o x ∧ fs q = none ∧ (rwg o x fs).1 q = some .dir) := by
  let W : Path → Prop := fun q => (∃ n, OwnName o x n ∧ q = workDir o x ++ [n]) ∨ q = workDir o x ∨ o.weight = some q ∨ (o.spatial = true ∧ o.subsetPath = some q)
  let I : FS → Prop := fun f => ∀ q, W q ∨ (workDir o x <+: q ∧ f q = none) ∨ f q = fs q ∨
    (q <+: workDir o x ∧ fs q = none ∧ f q = some .dir)
  have hI : I (rwg o x fs).1 := by
    have h0 : I fs := fun q => .inr (.inr (.inl rfl))
    have hc : Closed I W := by
      intro f p c h hi hw q
      by_cases he : q = p
      · exact .inl (he ▸ hw)
      · rcases hi q with h1 | ⟨h1, h2⟩ | h1 | ⟨h1, h2, h3⟩
        · exact .inl h1
        · exact .inr (.inl ⟨h1, by rw [put_ne _ he]; exact h2⟩)
        · exact .inr (.inr (.inl (by rw [put_ne _ he]; exact h1)))
        · exact .inr (.inr (.inr ⟨h1, h2, by rw [put_ne _ he]; exact h3⟩))
    have hbody : ∀ n (r : FS) (wd : Option Path), I r → (∀ d, wd = some d → d = workDir o x) →
        I (body o x n wd r).1 := by
      intro n r wd hr hwd
      refine body_inv hc ?_ ?_ ?_ ?_ ?_ hr
      · intro d hd m hm
        rw [hwd d hd]
        exact .inl ⟨m, hm, rfl⟩
      · exact fun hs p hp => .inr (.inr (.inr ⟨hs, hp⟩))
      · exact fun _ _ p hp _ => .inr (.inr (.inl hp))
      · exact fun p hp => .inl (.inr (.inr (.inl hp)))
      · intro d hd f hf q
        rw [hwd d hd]
        by_cases hpre : (workDir o x).isPrefixOf q = true
        · exact .inr (.inl ⟨List.isPrefixOf_iff_prefix.1 hpre, by simp only [hpre, if_true]⟩)
        · simp only [hpre]
          exact hf q
    rcases rwg_cases o x fs with ⟨e, he⟩ | ⟨hn, _, ⟨r, e, hp, he⟩ | ⟨r, wd, hp, he⟩⟩
    · rw [he]; exact h0
    all_goals
      have hr : I r ∧ ∀ wd', (.ok wd' : Res (Option Path)) = (prepare o x (o.nchunks.bind id) fs).2 →
          ∀ d, wd' = some d → d = workDir o x := by
        rcases prepare_cases hp with ⟨rfl, h1, _⟩ | ⟨rfl, e', h1⟩ | ⟨_, h1, rfl, h2⟩ | ⟨_, d, h1, _, _, rfl, hall, h2⟩
        · refine ⟨h0, fun wd' hw d hd => ?_⟩
          rw [hp, h1] at hw
          cases hw
          simp [workDir, hd]
        · refine ⟨h0, fun wd' hw d hd => ?_⟩
          rw [hp, h1] at hw
          cases hw
        · refine ⟨fun q => ?_, fun wd' hw d hd => ?_⟩
          · by_cases he : q = x.tmp
            · exact .inl (.inr (.inl (by simp [workDir, h1, he])))
            · exact .inr (.inr (.inl (put_ne _ he)))
          · rw [hp] at hw
            rcases h2 with h2 | ⟨e', h2⟩
            · rw [h2] at hw
              cases hw
              cases hd
              simp [workDir, h1]
            · rw [h2] at hw; cases hw
        · have hwork : workDir o x = d := by simp [workDir, h1]
          refine ⟨fun q => ?_, fun wd' hw d' hd => ?_⟩
          · by_cases hpre : q.isPrefixOf d = true
            · have hpre' := List.isPrefixOf_iff_prefix.1 hpre
              rcases hall q hpre' with h3 | h3
              · exact .inr (.inr (.inr ⟨hwork ▸ hpre', h3, by simp [hpre]⟩))
              · exact .inr (.inr (.inl (by simp only [hpre, if_true]; exact h3.symm)))
            · exact .inr (.inr (.inl (by simp only [hpre]; rfl)))
          · rw [hp] at hw
            rcases h2 with h2 | ⟨e', h2⟩
            · rw [h2] at hw
              cases hw
              cases hd
              exact hwork.symm
            · rw [h2] at hw; cases hw
    · rw [he]; exact hr.1
    · rw [he]; exact hbody _ r wd hr.1 (hr.2 wd (by rw [hp]))
  rcases hI q with (h | h | h | h) | h | h | h
  · exact .inl h
  · exact .inr (.inr (.inl h))
  · exact .inr (.inr (.inr (.inl h)))
  · exact .inr (.inr (.inr (.inr (.inl h))))
  · exact .inr (.inl h)
  · exact absurd h hq
  · exact .inr (.inr (.inr (.inr (.inr h))))

/-- If the command makes its working directory itself, and the path of the subset is free, nothing that was there is changed or
removed, whatever fails; a file at the path of the weights is kept if weights are asked for.  Missing: runs in a directory that is
there (`C107_existing_directory_counterexample`), an existing subset (`C107_subset_overwritten_counterexample`) and weights that
are not asked for (`C107_history_added_counterexample`). -/
theorem C107_keeps_partial (o : Opts) (x : Ext) (fs : FS) (hfs : ProperFS fs) (hx : FreshTmp x fs) (hown : MakesItsOwn o)
    (hw : ∀ p, o.weight = some p → fs p ≠ none → AsksWeights o x ∨ AsksMerged o x)
    (hs : o.spatial = true → ∀ p, o.subsetPath = some p → fs p = none) (q : Path) (hq : fs q ≠ none) :
    (rwg o x fs).1 q = fs q := by
  let I : FS → Prop := fun f => ∀ q, fs q ≠ none → f q = fs q
  suffices hI : I (rwg o x fs).1 from hI q hq
  have h0 : I fs := fun q _ => rfl
  have hc : Closed I (fun p => fs p = none) := by
    intro f p c h hi hp q hq
    have he : q ≠ p := by rintro rfl; exact hq hp
    rw [put_ne _ he]
    exact hi q hq
  rcases rwg_cases o x fs with ⟨e, he⟩ | ⟨hn, _, ⟨r, e, hp, he⟩ | ⟨r, wd, hp, he⟩⟩
  · rw [he]; exact h0
  all_goals
    have hcr := shouldCreate_own hn hown.1
    have hr : I r ∧ ∀ wd', (.ok wd' : Res (Option Path)) = (prepare o x (o.nchunks.bind id) fs).2 →
        ∀ d, wd' = some d → fs d = none := by
      rcases prepare_cases hp with ⟨rfl, h1, h2⟩ | ⟨rfl, e', h1⟩ | ⟨_, h1, rfl, h2⟩ | ⟨_, d, h1, _, hfd, rfl, hall, h2⟩
      · exfalso
        rcases h2 with h2 | ⟨h2, h3⟩
        · rw [hcr] at h2; cases h2
        · rcases hown.2 with h4 | ⟨l, h4⟩
          · rw [h4] at h2; cases h2
          · rw [h4] at h3; cases h3
      · refine ⟨h0, fun wd' hw d hd => ?_⟩
        rw [hp, h1] at hw
        cases hw
      · refine ⟨fun q hq => ?_, fun wd' hw d hd => ?_⟩
        · exact put_ne _ (by rintro rfl; exact hq hx.1)
        · rw [hp] at hw
          rcases h2 with h2 | ⟨e', h2⟩
          · rw [h2] at hw
            cases hw
            cases hd
            exact hx.1
          · rw [h2] at hw; cases hw
      · refine ⟨fun q hq => ?_, fun wd' hw d' hd => ?_⟩
        · by_cases hpre : q.isPrefixOf d = true
          · rcases hall q (List.isPrefixOf_iff_prefix.1 hpre) with h3 | h3
            · exact absurd h3 hq
            · simp only [hpre, if_true]; exact h3.symm
          · simp only [hpre]; rfl
        · rw [hp] at hw
          rcases h2 with h2 | ⟨e', h2⟩
          · rw [h2] at hw
            cases hw
            cases hd
            exact hfd
          · rw [h2] at hw; cases hw
  · rw [he]; exact hr.1
  · rw [he]
    have hwd := hr.2 wd (by rw [hp])
    refine body_inv hc ?_ hs ?_ ?_ ?_ hr.1
    · exact fun d hd m _ => absent_below hfs (hwd d hd) (List.prefix_append _ _)
    · intro f hf p hpw hfp
      cases hfs0 : fs p with
      | none => rfl
      | some nd =>
        have := hf p (by rw [hfs0]; exact fun h => by cases h)
        rw [hfp, hfs0] at this
        cases this
    · intro p hpw
      by_cases hfp : fs p = none
      · exact .inl hfp
      · exact .inr ⟨fun f hf => by rw [hf p hfp]; exact hfp, asks_iff hn (hw p hpw hfp)⟩
    · intro d hd f hf q hq
      have hnp : ¬ d.isPrefixOf q = true := by
        intro hpre
        exact hq (absent_below hfs (hwd d hd) (List.isPrefixOf_iff_prefix.1 hpre))
      simp only [hnp]
      exact hf q hq

/-- After a successful run that does not persist, nothing is left in the working directory, and not the directory itself. -/
theorem C107_clean (o : Opts) (x : Ext) (fs r : FS) (h : rwg o x fs = (r, none)) (hp : o.persist = false) (q : Path)
    (hq : workDir o x <+: q) : r q = none := by
  rcases rwg_cases o x fs with ⟨e, he⟩ | ⟨hn, _, ⟨r', e, hpr, he⟩ | ⟨r', wd, hpr, he⟩⟩
  · rw [he] at h; cases h
  · rw [he] at h; cases h
  · rw [he] at h
    obtain ⟨m1, m2, m3, m4, e1, e2, e3, e4, e5⟩ := body_ok h
    rcases remove_ok e5 with ⟨h1, _⟩ | ⟨_, d, hd, rfl⟩
    · rw [h1] at hp; cases hp
    · have hwork : d = workDir o x := by
        rcases prepare_cases hpr with ⟨_, h1, _⟩ | ⟨_, e', h1⟩ | ⟨_, h1, _, h2⟩ | ⟨_, d', h1, _, _, _, _, h2⟩
        · cases h1
          simp [workDir, hd]
        · cases h1
        · rcases h2 with h2 | ⟨e', h2⟩
          · cases h2
            cases hd
            simp [workDir, h1]
          · cases h2
        · rcases h2 with h2 | ⟨e', h2⟩
          · cases h2
            cases hd
            simp [workDir, h1]
          · cases h2
      have : d.isPrefixOf q = true := List.isPrefixOf_iff_prefix.2 (hwork ▸ hq)
      simp [this]

/-- A successful run that was asked for weights leaves them at the path given, with the record of the command, if it makes its
working directory itself.  Missing: runs in a directory that is there (`C107_nested_weight_counterexample`). -/
theorem C107_weight_partial (o : Opts) (x : Ext) (fs r : FS) (hfs : ProperFS fs) (hx : FreshTmp x fs) (hown : MakesItsOwn o)
    (hask : AsksWeights o x ∨ AsksMerged o x)
    (htmp : o.wd = none → ∀ p, o.weight = some p → ¬ x.tmp <+: p) (h : rwg o x fs = (r, none)) :
    ∃ p c, o.weight = some p ∧ r p = some (.file c true) ∧ fs p = none ∧
      (AsksMerged o x → c = "merged") ∧ (¬ AsksMerged o x → c = "weights") := by
  rcases rwg_cases o x fs with ⟨e, he⟩ | ⟨hn, _, ⟨r', e, hpr, he⟩ | ⟨r', wd, hpr, he⟩⟩
  · rw [he] at h; cases h
  · rw [he] at h; cases h
  · rw [he] at h
    have hcr := shouldCreate_own hn hown.1
    -- the working directory
    have hd : ∃ d, wd = some d ∧ fs d = none ∧ Flat d r' ∧ (∀ q, fs q ≠ none → r' q = fs q) ∧
        (o.wd = none ∧ d = x.tmp ∨ o.wd = some d ∧ ∃ l, o.nchunks = some (some l)) := by
      rcases prepare_cases hpr with ⟨rfl, h1, h2⟩ | ⟨rfl, e', h1⟩ | ⟨_, h1, rfl, h2⟩ | ⟨_, d, h1, hl, hfd, rfl, hall, h2⟩
      · exfalso
        rcases h2 with h2 | ⟨h2, h3⟩
        · rw [hcr] at h2; cases h2
        · rcases hown.2 with h4 | ⟨l, h4⟩
          · rw [h4] at h2; cases h2
          · rw [h4] at h3; cases h3
      · cases h1
      · rcases h2 with h2 | ⟨e', h2⟩
        · cases h2
          refine ⟨x.tmp, rfl, hx.1, fun q hq hne => ?_, fun q hq => put_ne _ (by rintro rfl; exact hq hx.1), .inl ⟨h1, rfl⟩⟩
          rw [put_ne _ hne, absent_below hfs hx.1 hq]
          exact fun h => by cases h
        · cases h2
      · rcases h2 with h2 | ⟨e', h2⟩
        · cases h2
          refine ⟨d, rfl, hfd, fun q hq hne => ?_, fun q hq => ?_, .inr ⟨h1, ?_⟩⟩
          · have hnp : ¬ q.isPrefixOf d = true := by
              intro hpre
              have h3 := List.isPrefixOf_iff_prefix.1 hpre
              exact hne (h3.eq_of_length (Nat.le_antisymm h3.length_le hq.length_le))
            simp only [hnp]
            show fs q ≠ _
            rw [absent_below hfs hfd hq]
            exact fun h => by cases h
          · by_cases hpre : q.isPrefixOf d = true
            · rcases hall q (List.isPrefixOf_iff_prefix.1 hpre) with h3 | h3
              · exact absurd h3 hq
              · simp only [hpre, if_true]; exact h3.symm
            · simp only [hpre]; rfl
          · cases hk : o.nchunks with
            | none => rw [hk] at hl; cases hl
            | some l => cases l with
              | none => exact absurd hk hn
              | some l => exact ⟨l, rfl⟩
        · cases h2
    obtain ⟨d, rfl, hfd, hflat, hkept, hcase⟩ := hd
    obtain ⟨m1, m2, m3, m4, e1, e2, e3, e4, e5⟩ := body_ok h
    have hf1 : Flat d m1 := by
      have := subset_inv (flat_closed d) (o := o) (x := x) (wd := some d) (fun _ _ _ _ => trivial) (fun _ _ _ => trivial) hflat
      rw [e1] at this
      exact this
    have hf2 : Flat d m2 := by
      have := compute_inv (flat_closed d) (o := o) (x := x) (n := o.nchunks.bind id) (wd := some d) (fun _ _ _ _ => trivial)
        (fun _ _ _ _ _ => trivial) hf1
      rw [e2] at this
      exact this
    -- nothing that was there goes away before the last step
    let N : FS → Prop := fun f => ∀ q, fs q ≠ none → f q ≠ none
    have hNc : Closed N (fun _ => True) := by
      intro f p c b hi _ q hq
      by_cases he : q = p
      · rw [he, put_self]; exact fun h => by cases h
      · rw [put_ne _ he]; exact hi q hq
    have hN1 : N m1 := by
      have := subset_inv hNc (o := o) (x := x) (wd := some d) (fun _ _ _ _ => trivial) (fun _ _ _ => trivial)
        (fs := r') (fun q hq => by rw [hkept q hq]; exact hq)
      rw [e1] at this
      exact this
    have hN2 : N m2 := by
      have := compute_inv hNc (o := o) (x := x) (n := o.nchunks.bind id) (wd := some d) (fun _ _ _ _ => trivial)
        (fun _ _ _ _ _ => trivial) hN1
      rw [e2] at this
      exact this
    -- the file is written
    have hkey : ∃ p c m, o.weight = some p ∧ m3 p = some (.file c false) ∧ Flat d m ∧ m p.dropLast = some .dir ∧
        fs p = none ∧ (AsksMerged o x → c = "merged") ∧ (¬ AsksMerged o x → c = "weights") := by
      rcases merge_ok e3 with ⟨rfl, hno⟩ | ⟨hm, hs, hone, p, d', hw, _, rfl, hdir, hfree, _, _⟩
      · have hnm : ¬ AsksMerged o x := by
          rintro ⟨h1, h2, h3⟩
          rcases hno with h4 | h4 | h4
          · rw [h1] at h4; cases h4
          · rw [h2] at h4; cases h4
          · exact h3 ((isOne_iff x hn).1 h4)
        rcases hask with ha | ha
        · have hx' := asks_iff hn (.inl ha)
          have hsel : o.spatial = true ∨ o.nchunks.bind id = none ∨ isOne x (o.nchunks.bind id) = .ok true := by
            rcases ha.2 with h1 | h1 | h1
            · exact .inl h1
            · exact .inr (.inl (by rw [h1]; rfl))
            · exact .inr (.inr ((isOne_iff x hn).2 h1))
          rw [compute_weight hsel] at e2
          obtain ⟨p, hw, rfl, hdir, hfree, _⟩ := weight_ok ha.1 e2
          refine ⟨p, "weights", m1, hw, put_self _ _ _, hf1, hdir, ?_, fun h => absurd h hnm, fun _ => rfl⟩
          exact Decidable.not_not.1 fun hne => hN1 p hne hfree
        · exact absurd ha hnm
      · have hmg : AsksMerged o x := ⟨hm, hs, fun hc => by
          rw [(isOne_iff x hn).2 hc] at hone; cases hone⟩
        refine ⟨p, "merged", m2, hw, put_self _ _ _, hf2, hdir, ?_, fun _ => rfl, fun h => absurd hmg h⟩
        exact Decidable.not_not.1 fun hne => hN2 p hne hfree
    obtain ⟨p, c, m, hw, h3, hfm, hdir, hfree, hc1, hc2⟩ := hkey
    have h4 : m4 p = some (.file c true) := by
      rw [(history_ok e4).1 p c false h3]
      simp [hw]
    refine ⟨p, c, hw, ?_, hfree, hc1, hc2⟩
    rcases remove_ok e5 with ⟨_, rfl⟩ | ⟨_, d', hd', rfl⟩
    · exact h4
    · cases hd'
      have hnb : ¬ d <+: p := by
        rcases hcase with ⟨h1, rfl⟩ | ⟨h1, l, hl⟩
        · exact htmp h1 p hw
        · have hflag : ((o.merge && !o.spatial) || (o.spatial && o.genweights)) = true := by
            rcases hask with ⟨hg, h5 | h5 | h5⟩ | ⟨h5, h6, _⟩
            · simp [h5, hg]
            · rw [hl] at h5; cases h5
            · rcases hown.1 with h6 | h6
              · simp [h6, hg]
              · obtain ⟨i, hi, hne⟩ := h6 l hl
                unfold OneChunk at h5
                rw [hl] at h5
                exact absurd (h5 i hi) hne
            · simp [h5, h6]
          obtain ⟨p', hp', hsub⟩ := prepare_checked hpr hcr hflag
          rw [hw] at hp'
          cases hp'
          exact not_below hfm hdir hsub
      have hnb' : ¬ d.isPrefixOf p = true := fun h => hnb (List.isPrefixOf_iff_prefix.1 h)
      simp only [hnb']
      exact h4

/-- A successful run that was asked for a subset leaves it at the path given, or in the working directory, unless this is
removed. -/
theorem C107_subset (o : Opts) (x : Ext) (fs r : FS) (h : rwg o x fs = (r, none)) (hs : o.spatial = true)
    (hp : o.persist = true ∨ ∃ p, o.subsetPath = some p ∧ ¬ workDir o x <+: p) :
    ∃ b, r (o.subsetPath.getD (workDir o x ++ ["spatial_subset.nc"])) = some (.file "subset" b) := by
  rcases rwg_cases o x fs with ⟨e, he⟩ | ⟨hn, _, ⟨r', e, hpr, he⟩ | ⟨r', wd, hpr, he⟩⟩
  · rw [he] at h; cases h
  · rw [he] at h; cases h
  · rw [he] at h
    have hwork : wd = some (workDir o x) := by
      have hcr := shouldCreate_own hn (.inl hs)
      rcases prepare_cases hpr with ⟨_, h1, h2⟩ | ⟨_, e', h1⟩ | ⟨_, h1, _, h2⟩ | ⟨_, d', h1, _, _, _, _, h2⟩
      · rcases h2 with h2 | ⟨h2, _⟩
        · rw [hcr] at h2; cases h2
        · cases h1
          obtain ⟨d, hd⟩ := Option.isSome_iff_exists.1 h2
          simp [workDir, hd]
      · cases h1
      · rcases h2 with h2 | ⟨e', h2⟩
        · cases h2; simp [workDir, h1]
        · cases h2
      · rcases h2 with h2 | ⟨e', h2⟩
        · cases h2; simp [workDir, h1]
        · cases h2
    subst hwork
    obtain ⟨m1, m2, m3, m4, e1, e2, e3, e4, e5⟩ := body_ok h
    generalize hq : o.subsetPath.getD (workDir o x ++ ["spatial_subset.nc"]) = q
    have h1 : m1 q = some (.file "subset" false) := by
      unfold subsetStep at e1
      rw [if_pos hs] at e1
      cases hsp : o.subsetPath with
      | some p =>
        rw [hsp] at e1 hq
        simp only at e1
        obtain ⟨m0, e0, e1'⟩ := andThen_ok e1
        have hpq : p = q := hq
        rw [(write_ok e1').1, hpq, put_self]
      | none =>
        rw [hsp] at e1 hq
        simp only at e1
        obtain ⟨m0, e0, e1'⟩ := andThen_ok e1
        have hpq : workDir o x ++ ["spatial_subset.nc"] = q := hq
        rw [(write_ok e1').1, hpq, put_self]
    have h2 : m2 q = some (.file "subset" false) := by
      rw [compute_weight (.inl hs)] at e2
      by_cases hg : o.genweights = true
      · obtain ⟨p, hw, rfl, _, hfree, _⟩ := weight_ok hg e2
        have : q ≠ p := by rintro rfl; rw [h1] at hfree; cases hfree
        rw [put_ne _ this]
        exact h1
      · unfold weightStep at e2
        rw [if_neg hg] at e2
        cases e2
        exact h1
    have h3 : m3 q = some (.file "subset" false) := by
      rcases merge_ok e3 with ⟨rfl, _⟩ | ⟨_, hs', _⟩
      · exact h2
      · rw [hs] at hs'; cases hs'
    have h4 := (history_ok e4).1 q _ _ h3
    rcases remove_ok e5 with ⟨_, rfl⟩ | ⟨hper, d, hd, rfl⟩
    · exact ⟨_, h4⟩
    · rcases hp with hp | ⟨p, hsp, hnb⟩
      · rw [hp] at hper; cases hper
      · cases hd
        have hpq : p = q := by rw [← hq, hsp]; rfl
        have : ¬ (workDir o x).isPrefixOf q = true := by
          intro hpre
          exact hnb (hpq ▸ List.isPrefixOf_iff_prefix.1 hpre)
        exact ⟨_, by simp only [this]; exact h4⟩

/-- After a successful chunked run that persists, the working directory has the files of every chunk and the index; those of a chunk
without source data are the destination only. -/
theorem C107_chunks (o : Opts) (x : Ext) (fs r : FS) (l : List Int) (h : rwg o x fs = (r, none)) (hs : o.spatial = false)
    (hl : o.nchunks = some (some l)) (hone : ∃ i ∈ l, i ≠ 1) (hper : o.persist = true) :
    (∃ c b, r (workDir o x ++ ["01-split_index.nc"]) = some (.file c b)) ∧
    ∀ i, 1 ≤ i → i ≤ x.nfiles →
      (x.live i = true → ∃ c b, r (workDir o x ++ [s!"split_src_{i}.nc"]) = some (.file c b)) ∧
      (∃ c b, r (workDir o x ++ [s!"split_dst_{i}.nc"]) = some (.file c b)) ∧
      (o.genweights = true → x.live i = true →
        ∃ c b, r (workDir o x ++ [s!"esmf_weights_{i}.nc"]) = some (.file c b)) := by
  rcases rwg_cases o x fs with ⟨e, he⟩ | ⟨hn, _, ⟨r', e, hpr, he⟩ | ⟨r', wd, hpr, he⟩⟩
  · rw [he] at h; cases h
  · rw [he] at h; cases h
  · rw [he, hl] at h
    rw [hl] at hpr
    have hcr : shouldCreate (some l) o.spatial = true := by
      have := shouldCreate_own hn (.inr fun l' hl' => by rw [hl] at hl'; cases hl'; exact hone)
      rw [hl] at this
      exact this
    have hwork : wd = some (workDir o x) := by
      rcases prepare_cases hpr with ⟨_, h1, h2⟩ | ⟨_, e', h1⟩ | ⟨_, h1, _, h2⟩ | ⟨_, d', h1, _, _, _, _, h2⟩
      · rcases h2 with h2 | ⟨_, h2⟩
        · have h2' : shouldCreate (some l) o.spatial = false := h2
          rw [hcr] at h2'; cases h2'
        · cases h2
      · cases h1
      · rcases h2 with h2 | ⟨e', h2⟩
        · cases h2; simp [workDir, h1]
        · cases h2
      · rcases h2 with h2 | ⟨e', h2⟩
        · cases h2; simp [workDir, h1]
        · cases h2
    subst hwork
    obtain ⟨m1, m2, m3, m4, e1, e2, e3, e4, e5⟩ := body_ok h
    have hone' : isOne x (some l) = .ok false := by
      unfold isOne
      have : l.all (fun i => i == 1) = false := by
        rw [Bool.eq_false_iff]
        intro hall
        obtain ⟨i, hi, hne⟩ := hone
        exact hne (by simpa using List.all_eq_true.1 hall i hi)
      simp [this]
    obtain ⟨d, hd, hwc⟩ := compute_chunks hs hone' e2
    cases hd
    have hr : r = m4 := by
      rcases remove_ok e5 with ⟨_, h1⟩ | ⟨h1, _⟩
      · exact h1
      · rw [hper] at h1; cases h1
    have hfile : ∀ p, IsFile p m2 → IsFile p r := by
      intro p hp
      have h3 : IsFile p m3 := by
        have := merge_inv (isFile_closed p) (o := o) (x := x) (n := some l) (wd := some (workDir o x))
          (fun _ _ _ _ _ => trivial) hp
        rw [show mergeStep o x (some l) (some (workDir o x)) m2 = (m3, none) from e3] at this
        exact this
      have h4 : IsFile p m4 := by
        have := history_inv (isFile_closed p) (o := o) (fun _ _ => trivial) h3
        rw [e4] at this
        exact this
      rw [hr]; exact h4
    have hall : ∀ n ∈ ((List.range x.nfiles).flatMap fun i => chunkNames o.genweights x.live (i + 1)) ++ [indexName],
        IsFile (workDir o x ++ [n]) r := by
      intro n hn'
      refine hfile _ ?_
      unfold writeChunks at hwc
      cases hcf : x.chunkFail with
      | none =>
        rw [hcf] at hwc
        exact writeAll_files hwc n hn'
      | some ke =>
        rw [hcf] at hwc
        obtain ⟨k, e⟩ := ke
        obtain ⟨m, _, h2⟩ := andThen_ok hwc
        cases h2
    have hmem : ∀ i, 1 ≤ i → i ≤ x.nfiles → ∀ n ∈ chunkNames o.genweights x.live i, IsFile (workDir o x ++ [n]) r := by
      intro i h1 h2 n hn'
      refine hall n (List.mem_append_left _ (List.mem_flatMap.2 ⟨i - 1, List.mem_range.2 (by omega), ?_⟩))
      rw [show i - 1 + 1 = i by omega]
      exact hn'
    refine ⟨hall indexName (by simp), fun i h1 h2 => ⟨fun h3 => hmem i h1 h2 _ (by simp [chunkNames, h3]),
      hmem i h1 h2 _ (by simp [chunkNames]), fun h3 h4 => hmem i h1 h2 _ (by simp [chunkNames, h3, h4])⟩⟩

/-- With `nchunks_dst`, a working directory that is there is refused, and nothing changes. -/
theorem C107_refused (o : Opts) (x : Ext) (fs : FS) (d : Path) (l : List Int) (hd : o.wd = some d) (hfd : fs d ≠ none)
    (hl : o.nchunks = some (some l)) (hone : o.spatial = true ∨ ∃ i ∈ l, i ≠ 1) : rwg o x fs = (fs, some .valueError) := by
  have hn : o.nchunks ≠ some none := by rw [hl]; exact fun h => by cases h
  have hcr : shouldCreate (some l) o.spatial = true := by
    have := shouldCreate_own (o := o) hn (hone.imp id fun hone l' hl' => by rw [hl] at hl'; cases hl'; exact hone)
    rw [hl] at this
    exact this
  have hpr : prepare o x (o.nchunks.bind id) fs = (fs, .error .valueError) := by
    rw [hl]
    show prepare o x (some l) fs = _
    simp [prepare, hcr, hd, hfd]
  unfold rwg
  rw [if_neg hn, hpr]
  split
  · rfl
  · split <;> rfl

/-- Options that cannot be used are refused before anything is changed. -/
theorem C107_options (o : Opts) (x : Ext) (fs : FS) (h : o.nchunks = some none ∨
    (o.weight = none ∧ ((o.merge = true ∧ o.spatial = false) ∨ (o.spatial = true ∧ o.genweights = true)))) :
    rwg o x fs = (fs, some .valueError) := by
  unfold rwg
  by_cases hn : o.nchunks = some none
  · rw [if_pos hn]
  · rw [if_neg hn]
    rcases h with h | ⟨hw, ⟨h1, h2⟩ | ⟨h1, h2⟩⟩
    · exact absurd h hn
    · rw [if_pos (by simp [hw, h1, h2])]
    · rw [if_neg (by simp [h1]), if_pos (by simp [hw, h1, h2])]

/-- The check of the path of the weights against the working directory: refused are the directories above it, itself, and the files
directly in it. -/
theorem C107_inside (wd p : Path) (hd : ".." ∉ wd) : isSubdir wd p = true ↔ p <+: wd ∨ ∃ n, p = wd ++ [n] :=
  isSubdir_iff hd

/-- A merged weight file directly in the working directory is refused. -/
theorem C107_direct (o : Opts) (x : Ext) (fs : FS) (n : String) (l : List Int) (hl : o.nchunks = some (some l))
    (hone : ∃ i ∈ l, i ≠ 1) (hm : o.merge = true) (hs : o.spatial = false)
    (hw : o.weight = some (workDir o x ++ [n])) : ∃ e, (rwg o x fs).2 = some e := by
  rcases rwg_cases o x fs with ⟨e, he⟩ | ⟨hn, _, ⟨r', e, hpr, he⟩ | ⟨r', wd, hpr, he⟩⟩
  · exact ⟨e, by rw [he]⟩
  · exact ⟨e, by rw [he]⟩
  · exfalso
    have hcr := shouldCreate_own (o := o) hn (.inr fun l' hl' => by rw [hl] at hl'; cases hl'; exact hone)
    have hwork : wd = some (workDir o x) := by
      rcases prepare_cases hpr with ⟨_, h1, h2⟩ | ⟨_, e', h1⟩ | ⟨_, h1, _, h2⟩ | ⟨_, d', h1, _, _, _, _, h2⟩
      · rcases h2 with h2 | ⟨_, h2⟩
        · rw [hcr] at h2; cases h2
        · rw [hl] at h2; cases h2
      · cases h1
      · rcases h2 with h2 | ⟨e', h2⟩
        · cases h2; simp [workDir, h1]
        · cases h2
      · rcases h2 with h2 | ⟨e', h2⟩
        · cases h2; simp [workDir, h1]
        · cases h2
    subst hwork
    obtain ⟨p, hp, hsub⟩ := prepare_checked hpr hcr (by simp [hm, hs])
    rw [hw] at hp
    cases hp
    rw [isSubdir_child] at hsub
    cases hsub

/-- A run with one chunk and no working directory never succeeds unless it persists: there is no directory to remove. -/
theorem C107_one_chunk_never (o : Opts) (x : Ext) (fs : FS) (l : List Int) (hl : o.nchunks = some (some l))
    (hone : ∀ i ∈ l, i = 1) (hs : o.spatial = false) (hwd : o.wd = none) (hp : o.persist = false) :
    ∃ e, (rwg o x fs).2 = some e := by
  cases hr : rwg o x fs with
  | mk r e =>
    cases e with
    | some e => exact ⟨e, rfl⟩
    | none =>
      exfalso
      rcases rwg_cases o x fs with ⟨e, he⟩ | ⟨hn, _, ⟨r', e, hpr, he⟩ | ⟨r', wd, hpr, he⟩⟩
      · rw [he] at hr; cases hr
      · rw [he] at hr; cases hr
      · rw [he] at hr
        obtain ⟨m1, m2, m3, m4, e1, e2, e3, e4, e5⟩ := body_ok hr
        have hnc : shouldCreate (o.nchunks.bind id) o.spatial = false := by
          rw [hl, hs]
          simpa [shouldCreate] using hone
        rcases remove_ok e5 with ⟨h1, _⟩ | ⟨_, d, hd, _⟩
        · rw [hp] at h1; cases h1
        · rcases prepare_cases hpr with ⟨_, h1, h2⟩ | ⟨_, e', h1⟩ | ⟨h1, _⟩ | ⟨h1, _⟩
          · rw [hwd, hd] at h1; cases h1
          · cases h1
          · rw [hnc] at h1; cases h1
          · rw [hnc] at h1; cases h1

/-- A run without `nchunks_dst` that writes weights and merges never succeeds unless there is one chunk: the weights just written
are in the way of the merged ones. -/
theorem C107_merge_never (o : Opts) (x : Ext) (fs : FS) (hl : o.nchunks = none) (hs : o.spatial = false)
    (hm : o.merge = true) (hg : o.genweights = true) (hx : x.defaultOne ≠ .ok true) : ∃ e, (rwg o x fs).2 = some e := by
  cases hr : rwg o x fs with
  | mk r e =>
    cases e with
    | some e => exact ⟨e, rfl⟩
    | none =>
      exfalso
      rcases rwg_cases o x fs with ⟨e, he⟩ | ⟨hn, _, ⟨r', e, hpr, he⟩ | ⟨r', wd, hpr, he⟩⟩
      · rw [he] at hr; cases hr
      · rw [he] at hr; cases hr
      · rw [he] at hr
        obtain ⟨m1, m2, m3, m4, e1, e2, e3, e4, e5⟩ := body_ok hr
        rw [compute_weight (.inr (.inl (by rw [hl]; rfl)))] at e2
        obtain ⟨p, hw, rfl, _, _, _⟩ := weight_ok hg e2
        rcases merge_ok e3 with ⟨_, h1 | h1 | h1⟩ | ⟨_, _, _, p', d, hw', _, _, _, hfree, _⟩
        · rw [hm] at h1; cases h1
        · rw [hs] at h1; cases h1
        · rw [hl] at h1; exact hx h1
        · rw [hw] at hw'
          cases hw'
          rw [put_self] at hfree
          cases hfree

/-! ## Cases -/

/-- A small file system. -/
def rwgDisk : FS := ofNodes [([], .dir), (["tmp"], .dir), (["home"], .dir), (["home", "old.nc"], .file "mine" false),
  (["home", "work"], .dir), (["home", "work", "01-split_index.nc"], .file "chunk" false), (["home", "work", "a"], .dir),
  (["home", "work", "notes"], .file "mine" false)]

/-- A new temporary directory. -/
def rwgExt : Ext := { tmp := ["tmp", "ocgis_chunked_rwg_1"], nfiles := 2 }

/-- A run in two chunks. -/
def rwgTwo : Opts := { nchunks := some (some [2, 1]), weight := some ["home", "w.nc"], wd := some ["home", "new", "wd"] }

example : ProperFS rwgDisk ∧ FreshTmp rwgExt rwgDisk ∧ MakesItsOwn rwgTwo ∧ AsksMerged rwgTwo rwgExt ∧
    (rwg rwgTwo rwgExt rwgDisk).2 = none ∧ (rwg rwgTwo rwgExt rwgDisk).1 ["home", "w.nc"] = some (.file "merged" true) ∧
    (rwg rwgTwo rwgExt rwgDisk).1 ["home", "new", "wd"] = none ∧
    (rwg rwgTwo rwgExt rwgDisk).1 ["home", "new"] = some .dir ∧ rwgDisk ["home", "new"] = none :=
  ⟨proper_of (by decide +kernel), ⟨by decide +kernel, by decide +kernel⟩,
    ⟨.inr (by rintro l ⟨⟩; exact ⟨2, by simp, by decide⟩), .inr ⟨_, rfl⟩⟩,
    ⟨rfl, rfl, fun h => absurd (h 2 (by simp)) (by decide)⟩, by decide +kernel, by decide +kernel, by decide +kernel,
    by decide +kernel, by decide +kernel⟩

example : (rwg { rwgTwo with persist := true } rwgExt rwgDisk).2 = none ∧
    (rwg { rwgTwo with persist := true } rwgExt rwgDisk).1 ["home", "new", "wd", "esmf_weights_2.nc"] ≠ none := by
  constructor <;> decide +kernel

example : (rwg { spatial := true, weight := some ["home", "w.nc"], subsetPath := some ["home", "s.nc"] } rwgExt rwgDisk).2 = none ∧
    AsksWeights { spatial := true, weight := some ["home", "w.nc"], subsetPath := some ["home", "s.nc"] } rwgExt :=
  ⟨by decide +kernel, rfl, .inl rfl⟩

/-- A file that exists at the path of the weights stops the run; it is kept. -/
example : (rwg { rwgTwo with weight := some ["home", "old.nc"] } rwgExt rwgDisk).2 = some .ioError ∧
    (rwg { rwgTwo with weight := some ["home", "old.nc"] } rwgExt rwgDisk).1 ["home", "new", "wd"] = some .dir := by
  constructor <;> decide +kernel

/-- Chunk files can fail to be written: the directory stays. -/
example : (rwg rwgTwo { rwgExt with chunkFail := some (4, .runtimeError) } rwgDisk).2 = some .runtimeError ∧
    (rwg rwgTwo { rwgExt with chunkFail := some (4, .runtimeError) } rwgDisk).1 ["home", "new", "wd", "split_src_2.nc"] ≠ none ∧
    (rwg rwgTwo { rwgExt with chunkFail := some (4, .runtimeError) } rwgDisk).1 ["home", "new", "wd", "split_dst_2.nc"] = none := by
  refine ⟨?_, ?_, ?_⟩ <;> decide +kernel

/-- Without `nchunks_dst` the directory given is used although it is there, and is removed with all that is in it: files the run
has nothing to do with are lost, for a subset as well as for merging only. -/
theorem C107_existing_directory_counterexample :
    let o : Opts := { spatial := true, genweights := false, wd := some ["home", "work"], subsetPath := some ["home", "s.nc"] }
    let o2 : Opts := { genweights := false, weight := some ["home", "w.nc"], wd := some ["home", "work"] }
    rwgDisk ["home", "work", "notes"] = some (.file "mine" false) ∧ (rwg o rwgExt rwgDisk).2 = none ∧
    (rwg o rwgExt rwgDisk).1 ["home", "work", "notes"] = none ∧ (rwg o2 rwgExt rwgDisk).2 = none ∧
    (rwg o2 rwgExt rwgDisk).1 ["home", "work", "notes"] = none := by
  refine ⟨?_, ?_, ?_, ?_, ?_⟩ <;> decide +kernel

/-- So is a directory given for a run with one chunk. -/
theorem C107_one_chunk_directory_counterexample :
    let o : Opts := { nchunks := some (some [1, 1]), weight := some ["home", "w.nc"], wd := some ["home", "work"] }
    (rwg o rwgExt rwgDisk).2 = none ∧ (rwg o rwgExt rwgDisk).1 ["home", "work", "notes"] = none := by
  refine ⟨?_, ?_⟩ <;> decide +kernel

/-- A weight file deeper in the working directory is not refused: the run succeeds and removes it. -/
theorem C107_nested_weight_counterexample :
    let o : Opts := { genweights := false, weight := some ["home", "work", "a", "w.nc"], wd := some ["home", "work"] }
    isSubdir ["home", "work"] ["home", "work", "a", "w.nc"] = false ∧ (rwg o rwgExt rwgDisk).2 = none ∧
    (rwg o rwgExt rwgDisk).1 ["home", "work", "a", "w.nc"] = none := by
  refine ⟨?_, ?_, ?_⟩ <;> decide +kernel

/-- A working directory below the path of the weights' own directory name is refused as if the weights were in it. -/
theorem C107_above_counterexample :
    (rwg { rwgTwo with weight := some ["home", "new"] } rwgExt rwgDisk).2 = some .valueError ∧
    (rwg { rwgTwo with weight := some ["home", "new"] } rwgExt rwgDisk).1 ["home", "new", "wd"] = some .dir := by
  refine ⟨?_, ?_⟩ <;> decide +kernel

/-- One chunk, no working directory: the weights are written, then the run fails. -/
theorem C107_one_chunk_counterexample :
    let o : Opts := { nchunks := some (some [1, 1]), weight := some ["home", "w.nc"] }
    (rwg o rwgExt rwgDisk).2 = some .typeError ∧ (rwg o rwgExt rwgDisk).1 ["home", "w.nc"] = some (.file "weights" true) := by
  refine ⟨?_, ?_⟩ <;> decide +kernel

/-- With all options at their defaults the run fails after writing the weights; the temporary directory stays. -/
theorem C107_defaults_counterexample :
    let o : Opts := { weight := some ["home", "w.nc"] }
    (rwg o rwgExt rwgDisk).2 = some .ioError ∧ (rwg o rwgExt rwgDisk).1 ["home", "w.nc"] = some (.file "weights" false) ∧
    (rwg o rwgExt rwgDisk).1 rwgExt.tmp = some .dir := by
  refine ⟨?_, ?_, ?_⟩ <;> decide +kernel

/-- A subset without a path of its own, and without `--persist`, is removed by the run that was asked for it. -/
theorem C107_subset_removed_counterexample :
    let o : Opts := { spatial := true, genweights := false }
    (rwg o rwgExt rwgDisk).2 = none ∧ ∀ q, rwgExt.tmp <+: q → (rwg o rwgExt rwgDisk).1 q = none := by
  refine ⟨by decide +kernel, fun q hq => ?_⟩
  exact C107_clean { spatial := true, genweights := false } rwgExt rwgDisk _
    (Prod.ext rfl (by decide +kernel)) rfl q hq

/-- A file that exists at the path of the subset is overwritten. -/
theorem C107_subset_overwritten_counterexample :
    let o : Opts := { spatial := true, genweights := false, subsetPath := some ["home", "old.nc"] }
    (rwg o rwgExt rwgDisk).2 = none ∧ rwgDisk ["home", "old.nc"] = some (.file "mine" false) ∧
    (rwg o rwgExt rwgDisk).1 ["home", "old.nc"] = some (.file "subset" false) := by
  refine ⟨?_, ?_, ?_⟩ <;> decide +kernel

/-- A file that exists at the path of the weights is changed by a run that makes no weights. -/
theorem C107_history_added_counterexample :
    let o : Opts := { nchunks := some (some [2, 2]), merge := false, genweights := false, weight := some ["home", "old.nc"] }
    (rwg o rwgExt rwgDisk).2 = none ∧ rwgDisk ["home", "old.nc"] = some (.file "mine" false) ∧
    (rwg o rwgExt rwgDisk).1 ["home", "old.nc"] = some (.file "mine" true) := by
  refine ⟨?_, ?_, ?_⟩ <;> decide +kernel

/-- A refused path of the weights leaves the new working directory behind. -/
theorem C107_left_directory_counterexample :
    let o : Opts := { rwgTwo with weight := some ["home", "new", "wd", "w.nc"] }
    (rwg o rwgExt rwgDisk).2 = some .valueError ∧ rwgDisk ["home", "new", "wd"] = none ∧
    (rwg o rwgExt rwgDisk).1 ["home", "new", "wd"] = some .dir := by
  refine ⟨?_, ?_, ?_⟩ <;> decide +kernel

/-- A subset in a given directory that is not there fails: the directory is not made. -/
theorem C107_missing_directory_counterexample :
    let o : Opts := { spatial := true, genweights := false, wd := some ["home", "other"] }
    (rwg o rwgExt rwgDisk).2 = some .ioError := by decide +kernel

/-- The four grid types are read by their drivers, and a run with another type is refused. -/
theorem C107_grid_types (o : Opts) (x : Ext) (fs r : FS) :
    (∀ t d, driverOf t = .ok d ↔ (t, d) ∈ gridTypes) ∧
    (rwg o x fs = (r, none) → (∃ d, (o.srcType, d) ∈ gridTypes) ∧ ∃ d, (o.dstType, d) ∈ gridTypes) := by
  have ht : ∀ t d, driverOf t = .ok d ↔ (t, d) ∈ gridTypes := by
    intro t d
    unfold driverOf gridTypes
    split <;> simp_all <;> exact eq_comm
  refine ⟨ht, fun h => ?_⟩
  rcases rwg_cases o x fs with ⟨e, he⟩ | ⟨hn, _, ⟨r', e, hpr, he⟩ | ⟨r', wd, hpr, he⟩⟩
  · rw [he] at h; cases h
  · rw [he] at h; cases h
  · rw [he] at h
    unfold body at h
    cases hs : driverOf o.srcType with
    | error e => rw [hs] at h; cases h
    | ok a =>
      cases hd : driverOf o.dstType with
      | error e => rw [hs, hd] at h; cases h
      | ok b => exact ⟨⟨a, (ht _ _).1 hs⟩, b, (ht _ _).1 hd⟩

end Ocgis.Props
