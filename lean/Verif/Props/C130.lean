import Verif.Proofs.NcCollect
/-!
# C130: The variables of a file that is opened
-/
namespace Ocgis.Props
open Spec Ocgis.NcCollect Proofs.NcCollect

/-- In every group of the file the wanted variables are in the field, in their order and under their new names, if these are different. The names and
the predicate are about names in the file, in groups as at the top. Missing: new names that are not different (below). -/
theorem C130_variables_partial (pred : Option (String → Bool)) (m : List (String × String)) (file : FileGroup) (path names : List String)
    (h : varsInFile file path = some names) (hd : ((wantedVars pred names).map (nameInField m)).Nodup) :
    varsInField (readGroup pred m file) path = some ((wantedVars pred names).map fun n => (nameInField m n, n)) := by
  rw [at_path, h]
  simp only [Option.map_some, readVars_eq]
  rw [fold_new _ _ [] (by simpa using hd)]
  rfl

example : varsInField (readGroup (some (· != "lat")) [("tas", "t")] (.mk ["tas", "lat"] [("g", .mk ["lat", "pr", "tas"] [])])) ["g"] =
    some [("pr", "pr"), ("t", "tas")] := by decide +kernel

/-- There is no group in the field that is not in the file, and no group of the file that is not in the field. -/
theorem C130_groups (pred : Option (String → Bool)) (m : List (String × String)) (file : FileGroup) (path : List String) :
    (varsInField (readGroup pred m file) path).isSome = (varsInFile file path).isSome := by
  rw [at_path]
  cases varsInFile file path <;> rfl

/-- Under a name there is the last of the wanted variables that get the name, in silence: the others are in the field under no name. -/
theorem C130_collision_never (pred : Option (String → Bool)) (m : List (String × String)) (file : FileGroup) (path names : List String)
    (h : varsInFile file path = some names) : ∃ vars, varsInField (readGroup pred m file) path = some vars ∧
      ∀ q n, (q, n) ∈ vars ↔ ((wantedVars pred names).filter fun n => nameInField m n = q).getLast? = some n := by
  refine ⟨readVars pred m names, by rw [at_path, h]; rfl, fun q n => ?_⟩
  rw [readVars_eq]
  have hl := fold_lookup (nameInField m) (wantedVars pred names) q []
  rw [show List.lookup q ([] : List (String × String)) = none from rfl, Option.or_none] at hl
  rw [← hl]
  exact ⟨lookup_of_mem _ (fold_keys _ _ [] List.nodup_nil) q n, mem_of_lookup _ q n⟩

/-- So of two wanted variables with the same new name at most one is there. -/
theorem C130_lost_never (pred : Option (String → Bool)) (m : List (String × String)) (file : FileGroup) (path names : List String)
    (h : varsInFile file path = some names) (a b : String) (hab : a ≠ b) (hn : nameInField m a = nameInField m b) :
    ∃ vars, varsInField (readGroup pred m file) path = some vars ∧ ¬ (a ∈ vars.map (·.2) ∧ b ∈ vars.map (·.2)) := by
  obtain ⟨vars, hv, hm⟩ := C130_collision_never pred m file path names h
  refine ⟨vars, hv, ?_⟩
  rintro ⟨h1, h2⟩
  obtain ⟨⟨q, a'⟩, ha, rfl⟩ := List.mem_map.1 h1
  obtain ⟨⟨q', b'⟩, hb, rfl⟩ := List.mem_map.1 h2
  rw [hm] at ha hb
  have e1 := (List.mem_filter.1 (List.mem_of_getLast? ha)).2
  have e2 := (List.mem_filter.1 (List.mem_of_getLast? hb)).2
  simp only [decide_eq_true_eq] at e1 e2 hn hab
  rw [← e1] at ha
  rw [← e2, ← hn, ha] at hb
  exact hab (Option.some.inj hb)

example : varsInField (readGroup none [("tas", "pr")] (.mk ["tas", "lat", "pr"] [])) [] = some [("pr", "pr"), ("lat", "lat")] := by decide +kernel

/-- The new name of a variable is the one given at its place; a variable that has no new name keeps its name. -/
theorem C130_names (variables renames : List String) (hn : variables.Nodup) :
    (∀ i (h1 : i < variables.length) (h2 : i < renames.length), nameInField (renameMap variables renames) variables[i] = renames[i]) ∧
    (∀ n, n ∉ variables.take renames.length → nameInField (renameMap variables renames) n = n) := by
  constructor
  · intro i h1 h2
    rw [map_get _ _ hn]
    have hz : ((variables.zip renames).map (·.1)).Nodup := by
      rw [zip_keys]
      exact hn.sublist (List.take_sublist _ _)
    rw [lookup_of_mem _ hz variables[i] renames[i]]
    · rfl
    · exact List.mem_iff_getElem.2 ⟨i, by simp; omega, by simp⟩
  · intro n h
    rw [map_get _ _ hn, Ocgis.Proofs.MetaOverride.lookup_none]
    · rfl
    · rw [zip_keys]
      exact h

example : ["tas", "pr", "x"].Nodup ∧ (["tas", "pr", "x"].map (nameInField (renameMap ["tas", "pr", "x"] ["t", "p"]))) = ["t", "p", "x"] := by
  decide +kernel

end Ocgis.Props
