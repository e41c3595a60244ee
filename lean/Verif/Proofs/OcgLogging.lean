import Verif.Spec.OcgLogging
namespace Ocgis.Proofs.OcgLogging
open Ocgis.OcgLogging Spec

/-- States that cannot be told apart: the level does not matter if there is nothing to log to. -/
def Alike (s t : LogState) : Prop := s.null = t.null ∧ (s.null = false → s.level = t.level) ∧ s.callback = t.callback ∧ s.callbackLevel = t.callbackLevel

theorem emit_alike (b : Bool) (s t : LogState) (c : LogCall) (h : Alike s t) : emit b s c = emit b t c := by
  obtain ⟨n, l, f, k⟩ := s
  obtain ⟨n', l', f', k'⟩ := t
  obtain ⟨h1, h2, h3, h4⟩ := h
  simp only at h1 h2 h3 h4
  subst h1 h3 h4
  cases n with
  | true => rfl
  | false => rw [h2 rfl]

theorem after_snoc (h : List LogOp) (o : LogOp) : after (h ++ [o]) = applyOp (after h) o := by simp [after]

theorem apply_alike (s t : LogState) (o : LogOp) : Alike (applyOp s o) (applyOp t o) := by
  cases o with
  | shutdown => exact ⟨rfl, fun _ => rfl, rfl, rfl⟩
  | configure a b l f k =>
    simp only [applyOp]
    split
    · exact ⟨rfl, (fun h => Bool.noConfusion h), rfl, rfl⟩
    · exact ⟨rfl, fun _ => rfl, rfl, rfl⟩

theorem last_cases (h : List LogOp) : h = [] ∨ ∃ i o, h = i ++ [o] := by
  rcases List.eq_nil_or_concat h with h | ⟨i, o, h⟩
  · exact Or.inl h
  · exact Or.inr ⟨i, o, by rw [h, List.concat_eq_append]⟩

end Ocgis.Proofs.OcgLogging
