import Verif.Model.Units
import Verif.Proofs.ScatterGather
/-!
# Lemmas
-/
namespace Ocgis.Props
open Ocgis Ocgis.Text Ocgis.Units

theorem mem_pairsOf {U : Type} (xs : List U) (p : U × U) :
    p ∈ pairsOf xs ↔ ∃ i j : Nat, i ≠ j ∧ xs[i]? = some p.1 ∧ xs[j]? = some p.2 := by
  simp only [pairsOf, List.mem_flatMap, List.mem_range, List.mem_filterMap, List.mem_filter]
  constructor
  · rintro ⟨i, hi, j, ⟨hj, hne⟩, h⟩
    rw [List.getElem?_eq_getElem hi, List.getElem?_eq_getElem hj] at h
    simp only [Option.some.injEq] at h
    subst h
    exact ⟨i, j, by rintro rfl; simp at hne, List.getElem?_eq_getElem hi, List.getElem?_eq_getElem hj⟩
  · rintro ⟨i, j, hne, hi, hj⟩
    have hi' := (List.getElem?_eq_some_iff.1 hi).1
    have hj' := (List.getElem?_eq_some_iff.1 hj).1
    exact ⟨i, hi', j, ⟨hj', by simpa using fun e => hne e.symm⟩, by rw [hi, hj]⟩

theorem loopEqual_iff {U : Type} (ne : U → U → Bool) (ps : List (U × U)) :
    loopEqual ne ps = true ↔ ∀ p ∈ ps, ne p.1 p.2 = false := by
  induction ps with
  | nil => simp [loopEqual]
  | cons p ps ih =>
    simp only [loopEqual, List.mem_cons, forall_eq_or_imp]
    cases h : ne p.1 p.2 <;> simp [ih]

end Ocgis.Props
