import Verif.Proofs.Units

namespace Ocgis.Props
open Ocgis Ocgis.Text Ocgis.Units

/-- **C57**: for every sequence of units and every units library, fewer than two units are refused with a
`ValueError`; otherwise the answer is true exactly when no two units at different positions differ, compared
either way round. -/
theorem C57_equal {U : Type} (ne : U → U → Bool) (xs : List U) :
    (xs.length < 2 → areEqual ne xs = .error .valueError)
    ∧ (2 ≤ xs.length → ∃ b, areEqual ne xs = .ok b
        ∧ (b = true ↔ ∀ (i j : Nat) x y, i ≠ j → xs[i]? = some x → xs[j]? = some y → ne x y = false)) := by
  refine ⟨fun h => by rw [areEqual, if_pos h], fun h => ⟨_, by rw [areEqual, if_neg (by omega)], ?_⟩⟩
  rw [loopEqual_iff]
  constructor
  · intro hp i j x y hne hi hj
    exact hp (x, y) ((mem_pairsOf xs (x, y)).2 ⟨i, j, hne, hi, hj⟩)
  · intro hp p hpm
    obtain ⟨i, j, hne, hi, hj⟩ := (mem_pairsOf xs p).1 hpm
    exact hp i j p.1 p.2 hne hi hj

example : areEqual (fun a b : Nat => a != b) [3, 3, 3] = .ok true := by decide
example : areEqual (fun a b : Nat => a != b) [3, 3, 4] = .ok false := by decide

/-- **C57 (equivalence)**: units are reported convertible exactly when each can be converted to each of the others;
`is_convertible` decides where the library has it, `equivalent` otherwise. -/
theorem C57_equivalent {U : Type} (isConvertible equivalent : U → U → Res Bool) (conv : U → U → Bool) (xs : List U)
    (hc : ∀ x y, isConvertible x y = .ok (conv x y)
      ∨ (isConvertible x y = .error .attributeError ∧ equivalent x y = .ok (conv x y))) :
    (xs.length < 2 → areEquivalent isConvertible equivalent xs = .error .valueError)
    ∧ (2 ≤ xs.length → ∃ b, areEquivalent isConvertible equivalent xs = .ok b
        ∧ (b = true ↔ ∀ (i j : Nat) x y, i ≠ j → xs[i]? = some x → xs[j]? = some y → conv x y = true)) := by
  refine ⟨fun h => by rw [areEquivalent, if_pos h], fun h => ?_⟩
  have hm : (pairsOf xs).mapM (convertibleTo isConvertible equivalent) = .ok ((pairsOf xs).map fun p => conv p.1 p.2) := by
    refine Ocgis.Mpi.mapM_ok _ _ _ ?_
    intro p _
    rw [convertibleTo.eq_def]
    rcases hc p.1 p.2 with h | ⟨h1, h2⟩
    · rw [h]
    · rw [h1]; exact h2
  refine ⟨_, by rw [areEquivalent, if_neg (by omega), hm], ?_⟩
  simp only [List.all_map, List.all_eq_true, Function.comp, id]
  constructor
  · intro hp i j x y hne hi hj
    exact hp (x, y) ((mem_pairsOf xs (x, y)).2 ⟨i, j, hne, hi, hj⟩)
  · intro hp p hpm
    obtain ⟨i, j, hne, hi, hj⟩ := (mem_pairsOf xs p).1 hpm
    exact hp i j p.1 p.2 hne hi hj

example : areEquivalent (fun a b : Nat => .ok (a % 2 == b % 2)) (fun _ _ => .error .attributeError) [1, 3, 5] = .ok true := by decide
example : areEquivalent (fun _ _ : Nat => .error .attributeError) (fun a b : Nat => .ok (a % 2 == b % 2)) [1, 2] = .ok false := by decide

/-- **C57 (by string)**: without the units library two texts are equal up to case; with it, a text it cannot read is
refused, and otherwise the two are equal exactly when the library finds them equal either way round. -/
theorem C57_by_string (lib : Library) (source target : Text) :
    (∀ l, areEqualByString l source target false = .ok (decide (lower source = lower target)))
    ∧ (∀ s t, lib.parse source = .ok s → lib.parse target = .ok t →
        areEqualByString (some lib) source target true = .ok (!lib.ne s t && !lib.ne t s))
    ∧ (∀ e, lib.parse source = .error e → areEqualByString (some lib) source target true = .error e) := by
  refine ⟨fun l => ?_, fun s t hs ht => ?_, fun e he => ?_⟩
  · simp only [areEqualByString, Bool.false_eq_true, if_false]
    by_cases h : lower source = lower target <;> simp [h]
  · simp only [areEqualByString, if_true, hs, ht, bind, Except.bind]
    have : areEqual lib.ne [s, t] = .ok (!lib.ne s t && !lib.ne t s) := by
      rw [areEqual, if_neg (by simp)]
      have : pairsOf [s, t] = [(s, t), (t, s)] := rfl
      rw [this]
      simp only [loopEqual]
      cases lib.ne s t <;> cases lib.ne t s <;> rfl
    exact this
  · simp only [areEqualByString, if_true, he, bind, Except.bind]

example : areEqualByString none "Kelvin".toList "KELVIN".toList false = .ok true := by decide

/-- **C57 (counterexample)**: asked to try the library on a machine that has none, the comparison does not fall back
to the texts: it raises an `ImportError` even for equal texts. -/
theorem C57_fallback_counterexample (s : Text) : areEqualByString none s s true = .error .importError := rfl

end Ocgis.Props
