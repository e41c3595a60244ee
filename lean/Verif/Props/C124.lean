import Verif.Proofs.Justify
/-!
# C124: Breaking a text into rows
-/
namespace Ocgis.Props
open Spec Ocgis.Justify Proofs.Justify

private def rowText : List Char := ['o', 'n', 'e', ' ', 't', 'w', 'o', ' ', 's', 'i', 'x']

/-- A text is broken into indented rows with all of its words, each row as full as it can be and narrower than the right edge. Missing: its words
must be shorter than the space between indentation and right edge (`C124_endless_never`, `C124_long_never`). -/
theorem C124_rows_partial (text : List Char) (words : List (List Char)) (hw : WordsOf (strip text) words) (indent right : Nat)
    (h2 : words.length ≠ 1) (hs : ∀ w ∈ words, w.length + indent < right) :
    ∃ turns rows, justify turns text indent right = some (rows.map (List.replicate indent ' ' ++ ·)) ∧
      FilledRows words (right - indent - 1) rows := by
  have hsp : split (strip text) = words := split_unique _ words hw
  obtain ⟨w, hwm⟩ := List.exists_mem_of_ne_nil words hw.1
  have hir := hs w hwm
  obtain ⟨rows, h3, h4⟩ := rowsOf_ok (right - indent - 1) words.length words hw.1 (Nat.le_refl _) (fun v hv => by have := hs v hv; omega)
  refine ⟨words.length, rows, ?_, h4⟩
  unfold justify
  simp only [hsp]
  rw [if_neg h2, if_neg]
  · have : (right : Int) - (indent + 1) = ((right - indent - 1 : Nat) : Int) := by omega
    rw [this, h3]
    rfl
  · rw [List.any_eq_true]
    rintro ⟨v, hv, h⟩
    have := hs v hv
    simp only [decide_eq_true_eq] at h
    omega

example : justify 5 rowText 1 9 = some [[' ', 'o', 'n', 'e', ' ', 't', 'w', 'o'], [' ', 's', 'i', 'x']] := by decide +kernel

/-- A word that fits exactly between indentation and right edge, among others, makes the loop endless. -/
theorem C124_endless_never (text : List Char) (words : List (List Char)) (hw : WordsOf (strip text) words) (indent right : Nat)
    (hir : indent < right) (h2 : words.length ≠ 1) (hs : ∀ w ∈ words, w.length + indent ≤ right) (w : List Char) (hm : w ∈ words)
    (he : w.length + indent = right) (turns : Nat) : justify turns text indent right = none := by
  have hsp : split (strip text) = words := split_unique _ words hw
  unfold justify
  simp only [hsp]
  rw [if_neg h2, if_neg]
  · rw [rowsOf_stuck _ (by omega) turns words ⟨w, hm, by omega⟩]
    rfl
  · rw [List.any_eq_true]
    rintro ⟨v, hv, h⟩
    have := hs v hv
    simp only [decide_eq_true_eq] at h
    omega

example : justify 40 rowText 1 4 = none := by decide +kernel

/-- With a longer word nothing is broken: the text, with the blanks around it, is one row, beyond the right edge. -/
theorem C124_long_never (text : List Char) (words : List (List Char)) (hw : WordsOf (strip text) words) (indent right : Nat)
    (h2 : words.length ≠ 1) (w : List Char) (hm : w ∈ words) (he : right < w.length + indent) (turns : Nat) :
    justify turns text indent right = some [List.replicate indent ' ' ++ text] := by
  have hsp : split (strip text) = words := split_unique _ words hw
  unfold justify
  simp only [hsp]
  rw [if_neg h2, if_pos]
  · rfl
  · rw [List.any_eq_true]
    exact ⟨w, hm, by simp only [decide_eq_true_eq]; omega⟩

example : justify 0 (' ' :: rowText) 1 3 = some [' ' :: ' ' :: rowText] := by decide +kernel

/-- A single word is one row whatever its length, without the blanks around it. -/
theorem C124_word (text w : List Char) (hw : WordsOf (strip text) [w]) (indent right turns : Nat) :
    justify turns text indent right = some [List.replicate indent ' ' ++ w] := by
  have hsp : split (strip text) = [w] := split_unique _ _ hw
  unfold justify
  simp only [hsp]
  rfl

/-- The rows do not depend on the number of turns, and the blanks around the text are what stripping takes away. -/
theorem C124_turns (text : List Char) (indent right : Nat) (hir : indent < right) :
    Stripped text (strip text) ∧ WordsOf (strip text) (split (strip text)) ∧
    ∀ n m rows, justify n text indent right = some rows → n ≤ m → justify m text indent right = some rows := by
  refine ⟨strip_spec text, split_spec _, ?_⟩
  intro n m rows h hm
  unfold justify at h ⊢
  simp only at h ⊢
  rw [Option.map_eq_some_iff] at h ⊢
  obtain ⟨r, hr, h⟩ := h
  refine ⟨r, ?_, h⟩
  by_cases h1 : (split (strip text)).length = 1
  · rw [if_pos h1] at hr ⊢
    exact hr
  · rw [if_neg h1] at hr ⊢
    by_cases h2 : (split (strip text)).any (fun w => decide ((w.length : Int) > (right : Int) - indent)) = true
    · rw [if_pos h2] at hr ⊢
      exact hr
    · rw [if_neg h2] at hr ⊢
      exact rowsOf_more _ (by omega) n m _ _ hr hm

end Ocgis.Props
