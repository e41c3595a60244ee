import Verif.Proofs.MetaOverride
/-!
# C129: Attributes given for a calculation
-/
namespace Ocgis.Props
open Spec Ocgis.MetaOverride Proofs.MetaOverride

variable {V : Type}

/-- Attributes given flat are on the output variable, over its own; the field is as it was. Missing: attributes one of which is a dictionary
(`C129_mixed_never`). -/
theorem C129_flat_partial (given variableAttrs fieldAttrs : List (String × V)) (h : KeysOnce given) :
    ∃ v, overloadBoth (some (flat given)) variableAttrs fieldAttrs = .ok (v, fieldAttrs) ∧ OverriddenBy variableAttrs given v := by
  refine ⟨updateBy variableAttrs given, ?_, fun k => lookup_update given h _ k⟩
  have e : initial (flat given) = [("variable", .dict given), ("field", .dict [])] := by
    rw [initial, mergeIn, any_flat, leaves_flat]
    rfl
  simp only [overloadBoth, e]
  rfl

example : KeysOnce [("units", 1), ("name", 2)] ∧
    overloadBoth (some (flat [("units", 1), ("name", 2)])) [("units", 7)] [("units", 8)] = .ok ([("units", 1), ("name", 2)], [("units", 8)]) := by
  unfold KeysOnce
  decide +kernel

/-- Attributes given for the variable and for the field are on them, over their own; one of the two may be left out. -/
theorem C129_levels (forVariable forField : Option (List (String × V))) (variableAttrs fieldAttrs : List (String × V))
    (hv : ∀ d, forVariable = some d → KeysOnce d) (hf : ∀ d, forField = some d → KeysOnce d) (other : List (String × Given V))
    (ho : KeysOnce other) (h1 : other.lookup "variable" = forVariable.map .dict) (h2 : other.lookup "field" = forField.map .dict)
    (h3 : ∃ x ∈ other, isDict x.2 = true) :
    ∃ v f, overloadBoth (some other) variableAttrs fieldAttrs = .ok (v, f) ∧ OverriddenBy variableAttrs (forVariable.getD []) v ∧
      OverriddenBy fieldAttrs (forField.getD []) f := by
  have hd : (other.any fun x => isDict x.2) = true := List.any_eq_true.2 h3
  refine ⟨updateBy variableAttrs (forVariable.getD []), updateBy fieldAttrs (forField.getD []), ?_, fun k => lookup_update _ ?_ _ k,
    fun k => lookup_update _ ?_ _ k⟩
  · simp only [overloadBoth, overload, initial_dict other hd ho, h1, h2]
    cases forVariable <;> cases forField <;> rfl
  · cases forVariable with
    | none => simp [KeysOnce]
    | some d => exact hv d rfl
  · cases forField with
    | none => simp [KeysOnce]
    | some d => exact hf d rfl

example : overloadBoth (some [("field", .dict [("a", 1)]), ("variable", .dict [("b", 2)])]) [("b", 7), ("c", 3)] [("b", 8)] =
    .ok ([("b", 2), ("c", 3)], [("b", 8), ("a", 1)]) := by decide +kernel

/-- If one of the attributes given is a dictionary, no attribute but `variable` and `field` has any effect: without these, all that was given is
dropped in silence. -/
theorem C129_mixed_never (other : List (String × Given V)) (ho : KeysOnce other) (hd : ∃ x ∈ other, isDict x.2 = true)
    (h1 : other.lookup "variable" = none) (h2 : other.lookup "field" = none) (variableAttrs fieldAttrs : List (String × V)) :
    overloadBoth (some other) variableAttrs fieldAttrs = .ok (variableAttrs, fieldAttrs) := by
  have hd : (other.any fun x => isDict x.2) = true := List.any_eq_true.2 hd
  simp only [overloadBoth, overload, initial_dict other hd ho, h1, h2]
  rfl

example : overloadBoth (some [("units", .leaf 1), ("extra", .dict [("a", 1)])]) [("units", 7)] [] = .ok ([("units", 7)], []) := by decide +kernel

/-- `variable` or `field` with something that is no dictionary, beside a dictionary, is refused when the output is written, not when it is given. -/
theorem C129_level_leaf_never (other : List (String × Given V)) (ho : KeysOnce other) (hd : ∃ x ∈ other, isDict x.2 = true) (a : V)
    (h : other.lookup "variable" = some (.leaf a) ∨ other.lookup "field" = some (.leaf a)) (variableAttrs fieldAttrs : List (String × V)) :
    overloadBoth (some other) variableAttrs fieldAttrs = .error .typeError := by
  have hd : (other.any fun x => isDict x.2) = true := List.any_eq_true.2 hd
  simp only [overloadBoth, overload, initial_dict other hd ho]
  rcases h with h | h
  · simp only [h]
    rfl
  · simp only [h]
    cases hv : other.lookup "variable" with
    | none => rfl
    | some g => cases g <;> rfl

example : overloadBoth (some [("variable", .dict [("a", 1)]), ("field", .leaf 0)]) [("units", 7)] [] = .error .typeError := by decide +kernel

/-- Merging flat attributes forgets the flat attributes that were merged before, and keeps what is given for the field. -/
theorem C129_merge_never (value : List (String × Given V)) (first second : List (String × V)) (k : String) :
    (mergeIn (mergeIn value (flat first)) (flat second)).lookup k = (mergeIn value (flat second)).lookup k := by
  simp only [mergeIn, any_flat, leaves_flat, Bool.false_eq_true, if_false, lookup_assign]
  split <;> rfl

example : mergeIn (mergeIn [] (flat [("a", 1)])) (flat [("b", 2)]) = [("variable", .dict [("b", 2)])] := by decide +kernel

/-- Nothing given: nothing changed. -/
theorem C129_nothing (variableAttrs fieldAttrs : List (String × V)) :
    overloadBoth none variableAttrs fieldAttrs = .ok (variableAttrs, fieldAttrs) ∧
    overloadBoth (some []) variableAttrs fieldAttrs = .ok (variableAttrs, fieldAttrs) := ⟨rfl, rfl⟩

end Ocgis.Props
