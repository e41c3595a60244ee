import Verif.Proofs.EvalString

/-! # C75: calculations given as text -/

namespace Ocgis.Props
open Ocgis Ocgis.EvalString Ocgis.Spec

/-- An expression whose right side is written without spaces and in which no function name is part of another word is turned into
the expression in which each function and each variable, and nothing else, is replaced; the output is named by the left side. -/
theorem C75_expression_partial {out : List Char} {T : List Piece} {vars : List (List Char)} (hout : '=' ∉ out)
    (hT : Pieces T) (he : Piece.sign '=' ∉ T) (hv : GoodNames vars) (hp : Placed vars none T) (ha : FunctionsApart T)
    (hn : ∀ w, Piece.word w ∈ T → isName w → w ∈ functions ∨ w ∈ vars) :
    evalString (out ++ '=' :: textOf T) (mapVars vars) = .ok (wanted vars T, out) := by
  have hsp : splitEq [] (out ++ '=' :: textOf T) = [out, textOf T] := by
    rw [splitEq_cons hout, splitEq_none (eq_not_mem hT he)]
    simp
  unfold evalString
  rw [hsp]
  dsimp only
  rw [if_pos ((allowed_iff hT).mpr hn), prefixFuncs_textOf hT ha]
  have hP := pieces_pre (fs := functions) hT
  have hexec : ∀ k ∈ vars, "_exec_".toList ++ k ≠ [] ∧ ∀ c ∈ "_exec_".toList ++ k, wordChar c = true := by
    intro k hk
    refine ⟨by simp, ?_⟩
    intro c hc
    rcases List.mem_append.mp hc with h | h
    · have : ∀ c ∈ "_exec_".toList, wordChar c = true := by decide
      exact this c h
    · exact (hv.2.1 k hk).2.1 c h
  have hmem : ∀ kv ∈ mapVars vars, ∃ k ∈ vars, kv = (k, "_exec_".toList ++ k) := by
    intro kv hkv
    obtain ⟨k, hk, rfl⟩ := List.mem_map.mp hkv
    exact ⟨k, hk, rfl⟩
  rw [fold_vars (mapVars vars) hP (length_textOf hP), fold_swap_map]
  · congr 2
    rw [List.map_flatMap, textOf_flatMap]
    unfold wanted
    refine flatMap_congr_mem ?_
    intro q hq
    cases q with
    | sign c =>
      simp only [pre, List.map_cons, List.map_nil]
      rw [fold_swap_other vars (by simp)]
      rfl
    | word w =>
      dsimp only
      by_cases hw : w ∈ functions
      · simp only [pre, hw, if_true, List.map_cons, List.map_nil]
        have e1 := fold_swap_other vars (q := .word "np".toList) (by
          intro k hk e
          injection e with e
          exact (hv.2.1 k hk).2.2.2 e.symm)
        have e2 := fold_swap_other vars (q := .sign '.') (by simp)
        have e3 := fold_swap_other vars (q := .word w) (by
          intro k hk e
          injection e with e
          exact (hv.2.1 k hk).2.2.1 (e ▸ hw))
        rw [e1, e2, e3]
        simp [textOf, pieceText]
      · simp only [pre, hw, if_false, List.map_cons, List.map_nil]
        by_cases hk : w ∈ vars
        · rw [fold_swap_mem hv hk, if_pos hk]
          simp [textOf, pieceText]
        · rw [fold_swap_other vars, if_neg hk]
          · simp [textOf, pieceText]
          · intro k hk' e
            injection e with e
            exact hk (e ▸ hk')
  · intro kv hkv
    obtain ⟨k, hk, rfl⟩ := hmem kv hkv
    exact ⟨(hv.2.1 k hk).1, (hv.2.1 k hk).2.1, (hexec k hk).1, (hexec k hk).2⟩
  · intro kv hkv kv' hkv'
    obtain ⟨k, hk, rfl⟩ := hmem kv hkv
    obtain ⟨k', hk', rfl⟩ := hmem kv' hkv'
    exact hv.2.2 k hk k' hk'
  · intro kv hkv
    obtain ⟨k, hk, rfl⟩ := hmem kv hkv
    exact placed_pre (hv.2.1 k hk).2.2.1 (hv.2.1 k hk).2.2.2 hT (placed_sub (by simpa using hk) hp)

/-- `4*exp(tas)-power(tas+pr,2)`. -/
example : evalString "foo=4*exp(tas)-power(tas+pr,2)".toList (mapVars sampleVars) =
    .ok ("4*np.exp(_exec_tas)-np.power(_exec_tas+_exec_pr,2)".toList, "foo".toList) := by
  have := C75_expression_partial (out := "foo".toList) (by decide) samplePieces_ok (by decide) sampleVars_good
    samplePieces_placed (samplePieces_words (by decide)) (samplePieces_words (by unfold isName; decide))
  exact this

/-- Which expressions are refused: those without exactly one equals sign, and those whose right side contains a name that is
neither a function nor a variable. -/
theorem C75_refused (expr : List Char) (vars : List (List Char)) :
    evalString expr (mapVars vars) = .error .valueError ↔
      expr.count '=' ≠ 1 ∨
      ∃ out T w, Pieces T ∧ expr = out ++ '=' :: textOf T ∧ '=' ∉ out ∧ Piece.word w ∈ T ∧ isName w ∧
        w ∉ functions ∧ w ∉ vars := by
  by_cases hc : expr.count '=' = 1
  · have hm : '=' ∈ expr := List.count_pos_iff.mp (by omega)
    obtain ⟨out, r, rfl, hout⟩ := List.eq_append_cons_of_mem hm
    have hr : '=' ∉ r := by
      rw [List.count_append, List.count_cons_self] at hc
      exact List.count_eq_zero.mp (by omega)
    obtain ⟨T, hT, rfl⟩ := exists_pieces r
    have hsp : splitEq [] (out ++ '=' :: textOf T) = [out, textOf T] := by
      rw [splitEq_cons hout, splitEq_none hr]
      simp
    unfold evalString
    rw [hsp]
    dsimp only
    constructor
    · intro h
      right
      split at h
      · cases h
      · next hall =>
        rw [allowed_iff hT] at hall
        simp only [Classical.not_forall, not_or] at hall
        obtain ⟨w, h1, h2, h3, h4⟩ := hall
        exact ⟨out, T, w, hT, rfl, hout, h1, h2, h3, h4⟩
    · rintro (h | ⟨out', T', w, hT', he, hout', h1, h2, h3, h4⟩)
      · exact absurd hc h
      · rw [if_neg]
        rw [allowed_iff hT]
        intro hall
        have hs' := congrArg (splitEq []) he
        rw [hsp, splitEq_cons hout'] at hs'
        simp only [List.nil_append] at hs'
        injection hs' with _ hs'
        have hr' : '=' ∉ textOf T' := by
          intro hmem
          have := length_splitEq [] (textOf T')
          rw [← hs'] at this
          have h0 := List.count_pos_iff.mpr hmem
          simp at this
          omega
        rw [splitEq_none hr'] at hs'
        injection hs' with hs' _
        have hmem : w ∈ names (textOf T') := (mem_names hT').mpr ⟨h1, h2⟩
        have : w ∈ names (textOf T) := by rw [hs']; simpa using hmem
        obtain ⟨h5, h6⟩ := (mem_names hT).mp this
        exact (hall w h5 h6).elim h3 h4
  · simp only [hc, ne_eq, not_false_eq_true, true_or, iff_true]
    unfold evalString
    split
    · next out rhs h =>
      have := length_splitEq [] expr
      rw [h] at this
      simp at this
      omega
    · rfl

example : evalString "foo=tas+prc".toList (mapVars sampleVars) = .error .valueError := by decide
example : evalString "tas+pr".toList (mapVars sampleVars) = .error .valueError := by decide

/-- An expression is multivariate exactly when its right side contains two different names that are not functions. -/
theorem C75_multivariate {out : List Char} {T : List Piece} (hout : '=' ∉ out) (hT : Pieces T)
    (he : Piece.sign '=' ∉ T) :
    ∃ b, isMultivariate (out ++ '=' :: textOf T) = .ok b ∧
      (b = true ↔ ∃ v w, v ≠ w ∧ isVariable T v ∧ isVariable T w) := by
  have hsp : splitEq [] (out ++ '=' :: textOf T) = [out, textOf T] := by
    rw [splitEq_cons hout, splitEq_none (eq_not_mem hT he)]
    simp
  unfold isMultivariate
  rw [hsp]
  refine ⟨_, rfl, ?_⟩
  rw [decide_eq_true_iff, eraseDups_length_gt]
  have hm : ∀ w, w ∈ (names (textOf T)).filter (fun s => !ufuncs.contains s) ↔ isVariable T w := by
    intro w
    rw [List.mem_filter, mem_names hT]
    unfold isVariable
    simp [ufuncs_eq, and_assoc]
  constructor
  · rintro ⟨a, ha, b, hb, hab⟩
    exact ⟨a, b, hab, (hm a).mp ha, (hm b).mp hb⟩
  · rintro ⟨a, b, hab, ha, hb⟩
    exact ⟨a, (hm a).mpr ha, b, (hm b).mpr hb, hab⟩

example : isMultivariate "foo=4*exp(tas)-power(tas+pr,2)".toList = .ok true := by decide
example : isMultivariate "foo=4*exp(tas)".toList = .ok false := by decide

/-- A number written with an exponent counts as a variable: `1e5*tas` is taken for a function of two variables, and then refused. -/
theorem C75_exponent_counterexample :
    isMultivariate "foo=1e5*tas".toList = .ok true ∧
    evalString "foo=1e5*tas".toList (mapVars sampleVars) = .error .valueError := by
  decide

/-- Names of functions are replaced inside the names of variables: the variable `log_tas` is looked up as `np.log_tas`. -/
theorem C75_name_counterexample :
    evalString "foo=log_tas+1".toList (mapVars ["log_tas".toList]) = .ok ("np.log_tas+1".toList, "foo".toList) := by
  decide

/-- With spaces around the operators nothing is substituted: the expression accepted as one of `tas` and `pr` refers to names that do
not exist when it is evaluated. -/
theorem C75_space_counterexample :
    evalString "foo=tas + pr".toList (mapVars sampleVars) = .ok ("tas + pr".toList, "foo".toList) := by
  decide

/-- A variable after a comma is not substituted. -/
theorem C75_argument_counterexample :
    evalString "foo=power(2,tas)".toList (mapVars sampleVars) = .ok ("np.power(2,tas)".toList, "foo".toList) := by
  decide

/-- A variable with the name under which another is looked up is looked up twice: `_exec_tas` next to `tas`. -/
theorem C75_exec_counterexample :
    evalString "foo=tas+1".toList (mapVars ["tas".toList, "_exec_tas".toList]) =
      .ok ("_exec__exec_tas+1".toList, "foo".toList) := by
  decide

end Ocgis.Props
