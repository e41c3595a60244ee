import Verif.Proofs.Interp

/-!
# C66: the output directory at every crash point
-/

namespace Ocgis.Props
open Ocgis Ocgis.Interp Ocgis.Spec

/-- C66 (partial: failures of rank 0 only).  Whatever the ranks do, however their steps interleave and wherever the run is
stopped: the output directory is gone once rank 0 has failed, and is there as long as it has not. -/
theorem C66_directory_partial (c : Config) (hm : MakesDirectory c) (progs : Nat → List Action) (fs : Fs)
    (h : fs c.outdir = none ∨ c.overwrite = true) (schedule : List Nat) :
    (Raised (execute c progs fs schedule) 0 → (execute c progs fs schedule).fs c.outdir = none) ∧
    (¬Raised (execute c progs fs schedule) 0 → ((execute c progs fs schedule).fs c.outdir).isSome = true) := by
  obtain ⟨fs1, h1, h2, -⟩ := prepare_ok c hm fs h
  unfold execute
  have hstart : start c progs fs = ⟨fs1, fun r => .running (progs r)⟩ := by simp [start, h1]
  rw [hstart]
  suffices hg : ∀ (w : World), ((Raised w 0 → w.fs c.outdir = none) ∧ (¬Raised w 0 → (w.fs c.outdir).isSome = true)) →
      (Raised (schedule.foldl (step c) w) 0 → (schedule.foldl (step c) w).fs c.outdir = none) ∧
      (¬Raised (schedule.foldl (step c) w) 0 → ((schedule.foldl (step c) w).fs c.outdir).isSome = true) by
    apply hg
    constructor
    · rintro ⟨e, he⟩; simp at he
    · intro _; simp [h2]
  induction schedule with
  | nil => intro w hw; exact hw
  | cons r rs ih => intro w hw; exact ih _ (step_inv c hm w r hw)

example : MakesDirectory ⟨false, true, false, "out"⟩ ∧ (fun _ => none : Fs) "out" = none := ⟨⟨rfl, rfl⟩, rfl⟩

/-- C66 on one process (partial: the previous output of an overwriting run).  For every list of file operations in the
output directory, with a failure of any kind at any point: a run that fails raises the exception of the failure and leaves
no output directory, a run that succeeds leaves exactly the files written, and every other directory is as it was. -/
theorem C66_serial_partial (c : Config) (hm : MakesDirectory c) (progs : Nat → List Action) (fs : Fs)
    (h : fs c.outdir = none ∨ c.overwrite = true) (hd : ∀ d n, Action.write d n ∈ progs 0 → d = c.outdir)
    (k : Nat) (hk : (progs 0).length < k) :
    let w := execute c progs fs (List.replicate k 0)
    (∀ d, d ≠ c.outdir → w.fs d = fs d) ∧
    (∀ e, (written c.outdir (progs 0)).2 = some e → w.status 0 = .raised e ∧ w.fs c.outdir = none) ∧
    ((written c.outdir (progs 0)).2 = none → w.status 0 = .returned ∧ w.fs c.outdir = some (written c.outdir (progs 0)).1) := by
  obtain ⟨fs1, h1, h2, h3⟩ := prepare_ok c hm fs h
  have hstart : start c progs fs = ⟨fs1, fun r => .running (progs r)⟩ := by simp [start, h1]
  have := run_serial c hm (progs 0) ⟨fs1, fun r => .running (progs r)⟩ [] rfl h2 k hk hd
  simp only [execute, hstart]
  cases hw : written c.outdir (progs 0) with
  | mk new e =>
    rw [hw] at this
    cases e with
    | none =>
      obtain ⟨t1, t2⟩ := this
      rw [t1, t2]
      refine ⟨fun d hd => by rw [Fs.set_other _ _ _ _ hd]; exact h3 d hd, by simp, fun _ => ⟨rfl, by simp [Fs.set]⟩⟩
    | some e =>
      obtain ⟨t1, t2⟩ := this
      rw [t1, t2]
      refine ⟨fun d hd => by rw [Fs.set_other _ _ _ _ hd]; exact h3 d hd, ?_, by simp⟩
      intro e' he
      simp only [Option.some.injEq] at he
      subst he
      exact ⟨rfl, Fs.set_same _ _ _⟩

example : written "out" [.write "out" "a.nc", .write "out" "a_did.csv"] = (["a.nc", "a_did.csv"], none) ∧
    written "out" [.write "out" "a.nc", .fail .valueError] = (["a.nc"], some .valueError) := by decide

/-- C66: without `env.OVERWRITE` an existing output directory is refused and no rank changes any directory. -/
theorem C66_existing_refused (c : Config) (hm : MakesDirectory c) (progs : Nat → List Action) (fs : Fs)
    (h : (fs c.outdir).isSome = true) (ho : c.overwrite = false) (schedule : List Nat) :
    (execute c progs fs schedule).fs = fs ∧ (execute c progs fs schedule).status 0 = .raised .ioError := by
  have hp : prepare c fs = .error .ioError := by
    cases hp : prepare c fs with
    | error e => rw [(prepare_error c fs e hp).2.2.2]
    | ok fs1 =>
      obtain ⟨files, hf⟩ := Option.isSome_iff_exists.1 h
      simp [prepare, (makes_iff c).2 hm, hf, ho] at hp
  have hstart : start c progs fs = ⟨fs, fun r => if r = 0 then .raised .ioError else .waiting⟩ := by simp [start, hp]
  have : ∀ schedule : List Nat, schedule.foldl (step c) ⟨fs, fun r => if r = 0 then .raised .ioError else .waiting⟩ =
      ⟨fs, fun r => if r = 0 then .raised .ioError else .waiting⟩ := by
    intro l
    induction l with
    | nil => rfl
    | cons r rs ih =>
      rw [List.foldl_cons]
      have : step c ⟨fs, fun r => if r = 0 then .raised .ioError else .waiting⟩ r =
          ⟨fs, fun r => if r = 0 then .raised .ioError else .waiting⟩ := by
        unfold step; by_cases hr : r = 0 <;> simp [hr]
      rw [this, ih]
  rw [execute, hstart, this]
  exact ⟨rfl, rfl⟩

example : ((fun d => if d = "out" then some ["old.nc"] else none : Fs) "out").isSome = true := rfl

/-- C66 for formats without a directory of their own, or without auxiliary files: a step only ever adds a file to a directory
that exists; nothing is removed, whatever fails. -/
theorem C66_nothing_removed (c : Config) (hm : ¬MakesDirectory c) (progs : Nat → List Action) (fs : Fs) (schedule : List Nat)
    (d : String) (files : List String) (h : fs d = some files) :
    ∃ new, (execute c progs fs schedule).fs d = some (files ++ new) := by
  have hmk : c.makes = false := by
    cases hh : c.makes with
    | false => rfl
    | true => exact absurd ((makes_iff c).1 hh) hm
  have hstart : start c progs fs = ⟨fs, fun r => .running (progs r)⟩ := by simp [start, prepare, hmk]
  rw [execute, hstart]
  suffices hg : ∀ (w : World), (∃ new, w.fs d = some (files ++ new)) →
      ∃ new, (schedule.foldl (step c) w).fs d = some (files ++ new) from hg _ ⟨[], by simp [h]⟩
  induction schedule with
  | nil => intro w hw; exact hw
  | cons r rs ih =>
    intro w ⟨new, hw⟩
    apply ih
    unfold step
    cases hs : w.status r with
    | waiting => exact ⟨new, hw⟩
    | returned => exact ⟨new, hw⟩
    | raised e => exact ⟨new, hw⟩
    | running l =>
      cases l with
      | nil => exact ⟨new, hw⟩
      | cons a rest =>
        cases a with
        | fail e => exact ⟨new, by simpa [act, handler, hmk, World.put] using hw⟩
        | write d' n =>
          cases hf : w.fs d' with
          | none => exact ⟨new, by simpa [act, hf, handler, hmk, World.put] using hw⟩
          | some fl =>
            by_cases hdd : d = d'
            · subst hdd
              rw [hf] at hw; injection hw with hw; subst hw
              exact ⟨new ++ [n], by simp [act, hf, World.put, Fs.set]⟩
            · exact ⟨new, by simpa [act, hf, World.put, Fs.set, hdd] using hw⟩

example : ¬MakesDirectory ⟨false, false, false, "out"⟩ := fun h => by cases h.2

/-- C66 is false for failures of other ranks: rank 1 fails and rank 0 returns; the partially written directory stays. -/
theorem C66_other_rank_counterexample :
    let w := execute ⟨false, true, false, "out"⟩ (fun r => if r = 0 then [.write "out" "a.nc"] else [.fail .valueError])
      (fun _ => none) [0, 1, 0]
    w.status 0 = .returned ∧ w.status 1 = .raised .valueError ∧ w.fs "out" = some ["a.nc"] := by decide

/-- C66 is false with `env.OVERWRITE`: the previous output is removed before the run and lost when the run fails. -/
theorem C66_overwrite_counterexample :
    let fs : Fs := fun d => if d = "out" then some ["old.nc"] else none
    let w := execute ⟨false, true, true, "out"⟩ (fun _ => [.fail .valueError]) fs [0]
    w.status 0 = .raised .valueError ∧ w.fs "out" = none ∧ fs "out" = some ["old.nc"] := by decide

/-- C66: when the directory is refused on rank 0, the other ranks never get past the barrier, whatever the schedule. -/
theorem C66_ranks_wait_counterexample (progs : Nat → List Action) (schedule : List Nat) :
    (execute ⟨false, true, false, "out"⟩ progs (fun _ => some []) schedule).status 1 = .waiting := by
  have hstart : start ⟨false, true, false, "out"⟩ progs (fun _ => some []) =
      ⟨fun _ => some [], fun r => if r = 0 then .raised .ioError else .waiting⟩ := by
    simp [start, prepare, Config.makes]
  have : ∀ schedule : List Nat, schedule.foldl (step ⟨false, true, false, "out"⟩)
      ⟨fun _ => some [], fun r => if r = 0 then .raised .ioError else .waiting⟩ =
      ⟨fun _ => some [], fun r => if r = 0 then .raised .ioError else .waiting⟩ := by
    intro l
    induction l with
    | nil => rfl
    | cons r rs ih =>
      rw [List.foldl_cons]
      have : step ⟨false, true, false, "out"⟩ ⟨fun _ => some [], fun r => if r = 0 then .raised .ioError else .waiting⟩ r =
          ⟨fun _ => some [], fun r => if r = 0 then .raised .ioError else .waiting⟩ := by
        unfold step; by_cases hr : r = 0 <;> simp [hr]
      rw [this, ih]
  rw [execute, hstart, this]
  rfl

end Ocgis.Props
