import Verif.Spec.Interp
/-!
# Lemmas
-/
namespace Ocgis.Props
open Ocgis Ocgis.Interp Ocgis.Spec

theorem makes_iff (c : Config) : c.makes = true ↔ MakesDirectory c := by
  unfold Config.makes MakesDirectory; simp

theorem Fs.set_same (fs : Fs) (d : String) (v : Option (List String)) : fs.set d v d = v := by simp [Fs.set]
theorem Fs.set_other (fs : Fs) (d x : String) (v : Option (List String)) (h : x ≠ d) : fs.set d v x = fs x := by simp [Fs.set, h]

theorem prepare_ok (c : Config) (hm : MakesDirectory c) (fs : Fs) (h : fs c.outdir = none ∨ c.overwrite = true) :
    ∃ fs1, prepare c fs = .ok fs1 ∧ fs1 c.outdir = some [] ∧ ∀ d, d ≠ c.outdir → fs1 d = fs d := by
  unfold prepare
  rw [if_pos ((makes_iff c).2 hm)]
  cases hd : fs c.outdir with
  | none =>
    simp only [mkdir, hd]
    exact ⟨_, rfl, Fs.set_same _ _ _, fun d hd => Fs.set_other _ _ _ _ hd⟩
  | some files =>
    have ho : c.overwrite = true := by rcases h with h | h; · rw [hd] at h; cases h
                                       · exact h
    simp only [ho, if_true, rmtree, hd, mkdir, Fs.set_same]
    exact ⟨_, rfl, Fs.set_same _ _ _, fun d hd => by rw [Fs.set_other _ _ _ _ hd, Fs.set_other _ _ _ _ hd]⟩

theorem prepare_error (c : Config) (fs : Fs) (e : PyErr) (h : prepare c fs = .error e) :
    MakesDirectory c ∧ (fs c.outdir).isSome = true ∧ c.overwrite = false ∧ e = .ioError := by
  unfold prepare at h
  split at h
  · rename_i hm
    cases hd : fs c.outdir with
    | none => rw [hd] at h; simp [mkdir, hd] at h
    | some files =>
      rw [hd] at h
      simp only [rmtree, hd, mkdir, Fs.set_same] at h
      cases ho : c.overwrite with
      | true => rw [ho] at h; simp at h
      | false =>
        rw [ho] at h
        simp only [Bool.false_eq_true, if_false, Except.error.injEq] at h
        exact ⟨(makes_iff c).1 hm, rfl, rfl, h.symm⟩
  · cases h

/-- The invariant of a run that makes a directory: it is there exactly as long as rank 0 has not raised. -/
theorem step_inv (c : Config) (hm : MakesDirectory c) (w : World) (r : Nat)
    (h : (Raised w 0 → w.fs c.outdir = none) ∧ (¬Raised w 0 → (w.fs c.outdir).isSome = true)) :
    (Raised (step c w r) 0 → (step c w r).fs c.outdir = none) ∧ (¬Raised (step c w r) 0 → ((step c w r).fs c.outdir).isSome = true) := by
  have hmk := (makes_iff c).2 hm
  unfold step
  cases hs : w.status r with
  | waiting => exact h
  | returned => exact h
  | raised e => exact h
  | running l =>
    have h0 : r = 0 → ¬Raised w 0 := by rintro rfl ⟨e, he⟩; rw [hs] at he; cases he
    cases l with
    | nil =>
      by_cases hr : 0 = r
      · subst hr
        constructor
        · rintro ⟨e, he⟩; simp [World.put] at he
        · intro _; exact h.2 (h0 rfl)
      · have : Raised (w.put r .returned w.fs) 0 ↔ Raised w 0 := by simp [Raised, World.put, hr]
        rw [this]; exact h
    | cons a rest =>
      simp only
      cases ha : act w.fs a with
      | ok fs1 =>
        simp only
        have hsome : ∀ d, (fs1 d).isSome = (w.fs d).isSome := by
          intro d
          cases a with
          | fail e => simp [act] at ha
          | write d' n =>
            simp only [act] at ha
            cases hd : w.fs d' with
            | none => rw [hd] at ha; cases ha
            | some files =>
              rw [hd] at ha; injection ha with ha; subst ha
              by_cases hdd : d = d'
              · subst hdd; simp [Fs.set, hd]
              · rw [Fs.set_other _ _ _ _ hdd]
        have hnone : fs1 c.outdir = none ↔ w.fs c.outdir = none := by
          have := hsome c.outdir
          cases h1 : fs1 c.outdir <;> cases h2 : w.fs c.outdir <;> simp_all
        have hst : Raised (w.put r (.running rest) fs1) 0 ↔ Raised w 0 := by
          by_cases hr : 0 = r
          · subst hr
            simp only [Raised, World.put, if_true, reduceCtorEq, exists_false, false_iff]
            exact h0 rfl
          · simp [Raised, World.put, hr]
        rw [hst]
        show (Raised w 0 → fs1 c.outdir = none) ∧ (¬Raised w 0 → (fs1 c.outdir).isSome = true)
        rw [hnone, hsome]
        exact h
      | error e =>
        simp only
        by_cases hr : r = 0
        · subst hr
          have hs0 := h.2 (h0 rfl)
          obtain ⟨files, hf⟩ := Option.isSome_iff_exists.1 hs0
          have hh : handler c 0 w.fs e = (e, w.fs.set c.outdir none) := by
            unfold handler; rw [if_pos ⟨rfl, hmk⟩]; simp [rmtree, hf]
          rw [hh]
          constructor
          · intro _; exact Fs.set_same _ _ _
          · intro hn; exact absurd ⟨e, by simp [World.put]⟩ hn
        · have hh : handler c r w.fs e = (e, w.fs) := by unfold handler; rw [if_neg (fun hh => hr hh.1)]
          rw [hh]
          have : Raised (w.put r (.raised e) w.fs) 0 ↔ Raised w 0 := by simp [Raised, World.put, Ne.symm hr]
          rw [this]; exact h

/-- A serial run of the `try` block that only touches the output directory. -/
theorem run_serial (c : Config) (hm : MakesDirectory c) (prog : List Action) (w : World) (files : List String)
    (hs : w.status 0 = .running prog) (hf : w.fs c.outdir = some files) (k : Nat) (hk : prog.length < k)
    (hd : ∀ d n, Action.write d n ∈ prog → d = c.outdir) :
    match written c.outdir prog with
    | (new, none) =>
      ((List.replicate k 0).foldl (step c) w).status 0 = .returned ∧
        ((List.replicate k 0).foldl (step c) w).fs = w.fs.set c.outdir (some (files ++ new))
    | (_, some e) =>
      ((List.replicate k 0).foldl (step c) w).status 0 = .raised e ∧
        ((List.replicate k 0).foldl (step c) w).fs = w.fs.set c.outdir none := by
  have hmk := (makes_iff c).2 hm
  have hstay : ∀ (k : Nat) (w : World), (∀ l, w.status 0 ≠ .running l) → (List.replicate k 0).foldl (step c) w = w := by
    intro k
    induction k with
    | zero => intro w _; rfl
    | succ k ih =>
      intro w hw
      rw [List.replicate_succ, List.foldl_cons]
      have : step c w 0 = w := by
        unfold step
        cases hh : w.status 0 with
        | running l => exact absurd hh (hw l)
        | _ => rfl
      rw [this]; exact ih w hw
  induction prog generalizing w files k with
  | nil =>
    cases k with
    | zero => omega
    | succ k =>
      simp only [written]
      rw [List.replicate_succ, List.foldl_cons]
      have : step c w 0 = w.put 0 .returned w.fs := by simp [step, hs]
      rw [this, hstay _ _ (by intro l; simp [World.put])]
      refine ⟨by simp [World.put], ?_⟩
      funext d
      by_cases h : d = c.outdir
      · subst h; simp [World.put, Fs.set, hf]
      · rw [Fs.set_other _ _ _ _ h]; rfl
  | cons a rest ih =>
    cases k with
    | zero => omega
    | succ k =>
      rw [List.replicate_succ, List.foldl_cons]
      cases a with
      | fail e =>
        simp only [written]
        have : step c w 0 = w.put 0 (.raised e) (w.fs.set c.outdir none) := by
          simp [step, hs, act, handler, hmk, rmtree, hf]
        rw [this, hstay _ _ (by intro l; simp [World.put])]
        exact ⟨by simp [World.put], rfl⟩
      | write d n =>
        have hd' : d = c.outdir := hd d n (by simp)
        subst hd'
        have : step c w 0 = w.put 0 (.running rest) (w.fs.set c.outdir (some (files ++ [n]))) := by
          simp [step, hs, act, hf]
        rw [this]
        have hss : ∀ v v', (w.fs.set c.outdir v).set c.outdir v' = w.fs.set c.outdir v' := by
          intro v v'; funext x; by_cases h : x = c.outdir
          · subst h; simp [Fs.set]
          · simp [Fs.set, h]
        have := ih (w.put 0 (.running rest) (w.fs.set c.outdir (some (files ++ [n])))) (files ++ [n])
          (by simp [World.put]) (by simp [World.put, Fs.set]) k (by simp at hk; omega)
          (fun d n hn => hd d n (by simp [hn]))
        simp only [written, if_true]
        cases hw : written c.outdir rest with
        | mk new e =>
          rw [hw] at this
          cases e with
          | none => simpa [World.put, hss] using this
          | some e => simpa [World.put, hss] using this

end Ocgis.Props
