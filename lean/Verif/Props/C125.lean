import Verif.Proofs.ZipReturn
/-!
# C125: The archive of the output
-/
namespace Ocgis.Props
open Spec Ocgis.ZipReturn Proofs.ZipReturn

private def outFiles : List File := [⟨[], "out.csv", 1⟩, ⟨["shp"], "out.shp", 2⟩, ⟨["a"], "meta.txt", 3⟩]

/-- The output of memory has no path, one file alone is returned as it is, and everything else is put in an archive with the prefix, in the folder of the
output. -/
theorem C125_path (folder : List String) (name : String) (files : List File) (pre : String) :
    (∀ aux, formatReturn folder name files "ocgis" pre aux = .error .notImplemented) ∧
    (∀ format, format = "csv" ∨ format = "nc" → formatReturn folder name files format pre false = .ok ⟨folder ++ [name], none⟩) ∧
    ∀ format aux, format ≠ "ocgis" → (aux = true ∨ (format ≠ "csv" ∧ format ≠ "nc")) →
      ∃ archive, formatReturn folder name files format pre aux = .ok ⟨folder ++ [pre ++ ".zip"], some archive⟩ := by
  refine ⟨fun _ => rfl, ?_, ?_⟩
  · rintro format (rfl | rfl) <;> rfl
  · intro format aux h1 h2
    refine ⟨items folder files, ?_⟩
    unfold formatReturn
    rw [if_neg h1, if_neg]
    rintro ⟨h3, h4⟩
    rcases h2 with h2 | h2
    · rw [h2] at h4; cases h4
    · simp only [List.mem_cons, List.not_mem_nil, or_false] at h3
      rcases h3 with h3 | h3
      · exact h2.1 h3
      · exact h2.2 h3

/-- The archive has every file below the folder with its content, and nothing else. Missing: files with the same name, one of them in a folder `shp` or
not, must not differ (`C125_lost_never`). -/
theorem C125_archive_partial (folder : List String) (hf : folder ≠ []) (name : String) (files : List File) (format pre : String) (aux : Bool)
    (r : Returned) (archive : List Entry) (h : formatReturn folder name files format pre aux = .ok r) (ha : r.archive = some archive)
    (hd : ApartFiles folder files) :
    (∀ f ∈ files, (InShp folder f → extract archive ["shp", f.name] = some f.content) ∧
      (¬ InShp folder f → extract archive [f.name] = some f.content)) ∧
    (∀ e ∈ archive, ∃ f ∈ files, e.source = folder ++ f.dirs ++ [f.name] ∧ e.content = f.content) ∧ archive.length = files.length := by
  have harch : archive = items folder files := by
    unfold formatReturn at h
    split at h
    · cases h
    · split at h
      · cases h; cases ha
      · cases h; cases ha; rfl
  subst harch
  have key : ∀ f ∈ files, ∀ arc, ((InShp folder f ∧ arc = ["shp", f.name]) ∨ (¬ InShp folder f ∧ arc = [f.name])) →
      extract (items folder files) arc = some f.content := by
    intro f hfm arc harc
    rw [extract_iff]
    have hex : ∃ e ∈ items folder files, e.arcname = arc :=
      ⟨⟨folder ++ f.dirs ++ [f.name], arc, f.content⟩, (mem_items folder hf files _).2 ⟨f, hfm, rfl, rfl, harc⟩, rfl⟩
    obtain ⟨a, e, b, h1, h2, h3⟩ := last_of arc _ hex
    refine ⟨a, e, b, h1, h2, ?_, h3⟩
    have hm : e ∈ items folder files := by rw [h1]; simp
    obtain ⟨g, hg, -, hc, hgarc⟩ := (mem_items folder hf files e).1 hm
    rw [hc]
    rcases harc with ⟨h4, h5⟩ | ⟨h4, h5⟩
    · rcases hgarc with ⟨h6, h7⟩ | ⟨h6, h7⟩
      · rw [h2, h5] at h7
        simp only [List.cons.injEq, true_and, and_true] at h7
        exact (hd f hfm g hg h7 ⟨fun _ => h6, fun _ => h4⟩).symm
      · rw [h2, h5] at h7
        simp at h7
    · rcases hgarc with ⟨h6, h7⟩ | ⟨h6, h7⟩
      · rw [h2, h5] at h7
        simp at h7
      · rw [h2, h5] at h7
        simp only [List.cons.injEq, and_true] at h7
        exact (hd f hfm g hg h7 ⟨fun h => absurd h h4, fun h => absurd h h6⟩).symm
  refine ⟨?_, ?_, ?_⟩
  · intro f hfm
    exact ⟨fun hs => key f hfm _ (Or.inl ⟨hs, rfl⟩), fun hs => key f hfm _ (Or.inr ⟨hs, rfl⟩)⟩
  · intro e he
    obtain ⟨f, h1, h2, h3, -⟩ := (mem_items folder hf files e).1 he
    exact ⟨f, h1, h2, h3⟩
  · unfold items walk
    rw [if_neg hf, List.length_map]

example : (formatReturn ["", "out"] "out.csv" outFiles "csv-shp" "out" false).map (fun r => r.archive.map fun a =>
    (extract a ["out.csv"], extract a ["shp", "out.shp"], extract a ["meta.txt"])) = .ok (some (some 1, some 2, some 3)) := by decide +kernel

/-- Of files with the same name in different folders only the last is found in the archive. -/
theorem C125_lost_never (folder : List String) (hf : folder ≠ []) (a b c : List File) (f g : File) (hn : f.name = g.name) (h1 : ¬ InShp folder f)
    (h2 : ¬ InShp folder g) (hc : ∀ e ∈ c, e.name ≠ g.name) :
    extract (items folder (a ++ f :: b ++ g :: c)) [f.name] = some g.content := by
  have _ := h1
  rw [extract_iff]
  refine ⟨items folder (a ++ f :: b), ⟨folder ++ g.dirs ++ [g.name], [g.name], g.content⟩, items folder c, ?_, by rw [hn], rfl, ?_⟩
  · unfold items walk
    simp only [if_neg hf, List.map_append, List.map_cons]
    congr 2
    rw [if_neg fun h => h2 ((inShp_iff folder g).1 h)]
  · intro e he
    obtain ⟨k, hk, -, -, h⟩ := (mem_items folder hf c e).1 he
    rcases h with ⟨-, h⟩ | ⟨-, h⟩
    · rw [h]; simp
    · rw [h, hn]
      simp only [ne_eq, List.cons.injEq, and_true]
      exact hc k hk

example : extract (items ["out"] [⟨["2001"], "data.nc", 1⟩, ⟨["2002"], "data.nc", 2⟩]) ["data.nc"] = some 2 := by decide +kernel

/-- Folders are not kept, except one called `shp`, whatever is above it. -/
theorem C125_folders_never (folder : List String) (files : List File) (e : Entry) (he : e ∈ items folder files) :
    ∃ n, e.arcname = [n] ∨ e.arcname = ["shp", n] := by
  by_cases hf : folder = []
  · unfold items walk at he
    rw [if_pos hf] at he
    cases he
  · obtain ⟨f, -, -, -, h⟩ := (mem_items folder hf files e).1 he
    rcases h with ⟨-, h⟩ | ⟨-, h⟩
    · exact ⟨f.name, Or.inr h⟩
    · exact ⟨f.name, Or.inl h⟩

/-- If it is done again, the archive that was there is put into itself. -/
theorem C125_again_never (folder : List String) (hf : folder ≠ []) (name : String) (files more : List File) (format pre : String) (aux : Bool)
    (r r' : Returned) (archive : List Entry) (h : formatReturn folder name files format pre aux = .ok r) (ha : r.archive ≠ none) (content : Nat)
    (hm : ⟨[], pre ++ ".zip", content⟩ ∈ more) (h' : formatReturn folder name more format pre aux = .ok r') (ha' : r'.archive = some archive) :
    r'.path = r.path ∧ ∃ e ∈ archive, e.source = r'.path := by
  have key : ∀ (fs : List File) (r : Returned), formatReturn folder name fs format pre aux = .ok r → r.archive ≠ none →
      r.path = folder ++ [pre ++ ".zip"] ∧ r.archive = some (items folder fs) := by
    intro fs r h ha
    unfold formatReturn at h
    split at h
    · cases h
    · split at h
      · cases h; exact absurd rfl ha
      · cases h; exact ⟨rfl, rfl⟩
  obtain ⟨p1, -⟩ := key files r h ha
  obtain ⟨p2, q2⟩ := key more r' h' (by rw [ha']; simp)
  refine ⟨by rw [p1, p2], ?_⟩
  rw [ha'] at q2
  cases q2
  by_cases hs : InShp folder ⟨[], pre ++ ".zip", content⟩
  · exact ⟨⟨folder ++ [pre ++ ".zip"], ["shp", pre ++ ".zip"], content⟩,
      (mem_items folder hf more _).2 ⟨_, hm, by simp, rfl, Or.inl ⟨hs, rfl⟩⟩, by rw [p2]⟩
  · exact ⟨⟨folder ++ [pre ++ ".zip"], [pre ++ ".zip"], content⟩,
      (mem_items folder hf more _).2 ⟨_, hm, by simp, rfl, Or.inr ⟨hs, rfl⟩⟩, by rw [p2]⟩

/-- The archive for a path without a folder is empty. -/
theorem C125_relative_never (name : String) (files : List File) (format pre : String) (h1 : format ≠ "ocgis") :
    formatReturn [] name files format pre true = .ok ⟨[pre ++ ".zip"], some []⟩ := by
  unfold formatReturn
  rw [if_neg h1, if_neg (by simp)]
  rfl

end Ocgis.Props
