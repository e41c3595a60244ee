import Verif.Spec.ZipReturn
/-!
# Lemmas on the archive
-/
namespace Ocgis.Proofs.ZipReturn
open Spec Ocgis.ZipReturn

theorem inShp_iff (folder : List String) (f : File) : (folder ++ f.dirs).getLast? = some "shp" ↔ InShp folder f := by
  unfold InShp
  constructor
  · intro h
    rw [List.getLast?_eq_some_iff] at h
    exact h
  · rintro ⟨l, h⟩
    rw [h, List.getLast?_append]
    rfl

theorem extract_iff (archive : List Entry) (name : List String) (c : Nat) : extract archive name = some c ↔ ArchiveHas archive name c := by
  unfold extract ArchiveHas
  rw [Option.map_eq_some_iff]
  constructor
  · rintro ⟨e, he, rfl⟩
    rw [List.find?_eq_some_iff_append] at he
    obtain ⟨hn, a, b, hab, hb⟩ := he
    refine ⟨b.reverse, e, a.reverse, ?_, by simpa using hn, rfl, ?_⟩
    · have := congrArg List.reverse hab
      simpa using this
    · intro e' he'
      have := hb e' (List.mem_reverse.1 he')
      simpa using this
  · rintro ⟨a, e, b, h, hn, hc, hb⟩
    refine ⟨e, ?_, hc⟩
    rw [List.find?_eq_some_iff_append]
    refine ⟨by simpa using hn, b.reverse, a.reverse, by rw [h]; simp, ?_⟩
    intro e' he'
    have := hb e' (List.mem_reverse.1 he')
    simpa using this

/-- The last of the entries with a name. -/
theorem last_of (name : List String) : ∀ archive : List Entry, (∃ e ∈ archive, e.arcname = name) →
    ∃ a e b, archive = a ++ e :: b ∧ e.arcname = name ∧ ∀ e' ∈ b, e'.arcname ≠ name
  | [], ⟨_, h, _⟩ => by cases h
  | x :: l, ⟨e, he, hn⟩ => by
    by_cases h : ∃ e ∈ l, e.arcname = name
    · obtain ⟨a, e, b, h1, h2, h3⟩ := last_of name l h
      exact ⟨x :: a, e, b, by rw [h1]; rfl, h2, h3⟩
    · rcases List.mem_cons.1 he with rfl | he
      · exact ⟨[], e, l, rfl, hn, fun e' he' hn' => h ⟨e', he', hn'⟩⟩
      · exact absurd ⟨e, he, hn⟩ h

theorem mem_items (folder : List String) (hf : folder ≠ []) (files : List File) (e : Entry) : e ∈ items folder files ↔
    ∃ f ∈ files, e.source = folder ++ f.dirs ++ [f.name] ∧ e.content = f.content ∧
      ((InShp folder f ∧ e.arcname = ["shp", f.name]) ∨ (¬ InShp folder f ∧ e.arcname = [f.name])) := by
  unfold items walk
  rw [if_neg hf, List.mem_map]
  constructor
  · rintro ⟨f, hf, rfl⟩
    refine ⟨f, hf, rfl, rfl, ?_⟩
    by_cases h : InShp folder f
    · left
      exact ⟨h, if_pos ((inShp_iff folder f).2 h)⟩
    · right
      exact ⟨h, if_neg fun h' => h ((inShp_iff folder f).1 h')⟩
  · rintro ⟨f, hf, h1, h2, h3⟩
    refine ⟨f, hf, ?_⟩
    cases e with
    | mk s a c =>
      simp only at h1 h2 h3
      subst h1
      subst h2
      rcases h3 with ⟨h, rfl⟩ | ⟨h, rfl⟩
      · rw [if_pos ((inShp_iff folder f).2 h)]
      · rw [if_neg fun h' => h ((inShp_iff folder f).1 h')]

end Ocgis.Proofs.ZipReturn
