import Verif.Proofs.CliHistory
/-!
# C132: The command in the history of a weight file
-/
namespace Ocgis.Props
open Spec Ocgis.CliHistory Proofs.CliHistory

/-- The history tells runs apart: with different values of the parameters it has different words. Missing: that the words are a command for the
run (`C132_again_never`). -/
theorem C132_recorded_partial (s t : Settings) (h : history s = history t) : SameRun s t := by
  have h := pairs_inj _ _ h
  intro p hp
  have e := parm_eq s t h p hp
  obtain ⟨n, k⟩ := p
  cases k with
  | flag on off d =>
    simp only [historyParm] at e ⊢
    cases hs : s.flag n <;> cases ht : t.flag n <;> simp_all
  | text o d =>
    simp only [historyParm] at e ⊢
    cases hs : s.text n <;> cases ht : t.text n <;> simp_all

example : history { defaults with text := fun n => if n = "source" then some "a.nc" else none } =
    ["--source", "a.nc", "--no_spatial_subset", "False", "--no_persist", "False", "--no_ignore_degenerate", "False", "--no_verbose", "False",
      "--no_large_file", "False"] := by decide +kernel

/-- A value that is given is in the history, after its option. -/
theorem C132_values (s : Settings) (p : Parm) (hp : p ∈ parms) (o v : String) (d : Option String) (hk : p.kind = .text o d)
    (hv : s.text p.name = some v) : NextTo o v (history s) := by
  have ho : ∀ p ∈ parms, (match p.kind with | .text o _ => decide (o = "--" ++ p.name) | .flag .. => true) = true := by decide +kernel
  have ho := ho p hp
  rw [hk] at ho
  have ho : o = "--" ++ p.name := by simpa using ho
  have hm : (o, v) ∈ historyParms s := List.mem_filterMap.2 ⟨p, hp, by simp [historyParm, hk, hv, ho]⟩
  obtain ⟨a, b, e⟩ := List.append_of_mem hm
  refine ⟨a.flatMap fun x => [x.1, x.2], b.flatMap fun x => [x.1, x.2], ?_⟩
  rw [history, e, List.flatMap_append, List.flatMap_cons]
  rfl

example : (⟨"weight", .text "--weight" none⟩ : Parm) ∈ parms := by decide +kernel

/-- The command in the history is never a command for the run: it is refused, or the run is another one. -/
theorem C132_again_never (s : Settings) : ¬ ∃ r, parse (history s) defaults = .ok r ∧ SameRun r s := by
  rintro ⟨r, hr, hs⟩
  have h := parse_parms s parms (fun p hp => hp) defaults
  by_cases hf : ∃ p ∈ parms, isFlag p = true ∧ s.flag p.name = false
  · rw [history, historyParms, h.1 hf] at hr
    cases hr
  · have hall : ∀ p ∈ parms, isFlag p = true → s.flag p.name = true := by
      intro p hp h1
      cases h2 : s.flag p.name with
      | true => rfl
      | false => exact absurd ⟨p, hp, h1, h2⟩ hf
    obtain ⟨r', e1, e2⟩ := h.2 hall
    rw [history, historyParms, e1] at hr
    cases hr
    have hm : (⟨"persist", .flag "--persist" "--no_persist" false⟩ : Parm) ∈ parms := by decide +kernel
    have a := hs _ hm
    have b := hall _ hm rfl
    have c : defaults.flag "persist" = false := by decide +kernel
    simp only at a b
    rw [e2, c, b] at a
    cases a

/-- If a flag is not set, the command in the history is refused, whatever else is given; so it is for a run with nothing but required values. -/
theorem C132_refused_never (s : Settings) (p : Parm) (hp : p ∈ parms) (hf : isFlag p = true) (hs : s.flag p.name = false) :
    parse (history s) defaults = .error .valueError :=
  (parse_parms s parms (fun p hp => hp) defaults).1 ⟨p, hp, hf, hs⟩

example : defaults.flag "persist" = false ∧ parse (history defaults) defaults = .error .valueError :=
  ⟨by decide +kernel, C132_refused_never defaults ⟨"persist", .flag "--persist" "--no_persist" false⟩ (by decide +kernel) rfl (by decide +kernel)⟩

end Ocgis.Props
