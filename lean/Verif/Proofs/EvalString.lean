import Verif.Spec.EvalString
/-!
# Lemmas
-/
namespace Ocgis.Props
open Ocgis Ocgis.EvalString Ocgis.Spec

theorem isWord_eq (c : Char) : isWord c = wordChar c := rfl

theorem ufuncs_eq : ufuncs = functions := rfl

theorem textOf_word (w : List Char) (T : List Piece) : textOf (.word w :: T) = w ++ textOf T := rfl

theorem textOf_sign (c : Char) (T : List Piece) : textOf (.sign c :: T) = c :: textOf T := rfl

theorem textOf_nil : textOf [] = [] := rfl

/-- The text ends here or goes on with a character that is not a word character. -/
def Boundary (s : List Char) : Prop := ∀ c, s.head? = some c → wordChar c = false

theorem boundary_textOf {T : List Piece} (hT : Pieces T) (h : ∀ w' T', T ≠ .word w' :: T') : Boundary (textOf T) := by
  cases T with
  | nil => intro c hc; simp [textOf_nil] at hc
  | cons p T =>
    cases p with
    | word w => exact absurd rfl (h w T)
    | sign c => intro c' hc'; simp [textOf_sign] at hc'; subst hc'; exact hT.1

theorem takeWhile_boundary {w s : List Char} (hw : ∀ c ∈ w, wordChar c = true) (hs : Boundary s) :
    (w ++ s).takeWhile wordChar = w := by
  rw [List.takeWhile_append_of_pos hw]
  cases s with
  | nil => simp
  | cons c cs => simp [hs c rfl]

/-- A name followed by a boundary is the next word. -/
theorem nameThen_iff {k : List Char} (hk : k ≠ []) (hkw : ∀ c ∈ k, wordChar c = true) {p : Option Char → Bool}
    (hp : ∀ c, p (some c) = true → wordChar c = false) {T : List Piece} (hT : Pieces T) :
    nameThen k p (textOf T) = true ↔ ∃ T', T = .word k :: T' ∧ p (textOf T').head? = true := by
  unfold nameThen
  rw [Bool.and_eq_true, List.isPrefixOf_iff_prefix]
  constructor
  · rintro ⟨⟨s, hs⟩, hb⟩
    rw [← hs, List.drop_left] at hb
    have hbd : Boundary s := by
      intro c hc
      rw [hc] at hb
      exact hp c hb
    cases T with
    | nil => rw [textOf_nil] at hs; simp at hs; exact absurd hs.1 hk
    | cons q T =>
      cases q with
      | sign c =>
        rw [textOf_sign] at hs
        cases k with
        | nil => exact absurd rfl hk
        | cons a k =>
          simp at hs
          have := hkw a (by simp)
          rw [hs.1, hT.1] at this
          cases this
      | word w =>
        rw [textOf_word] at hs
        have h1 := takeWhile_boundary hkw hbd
        have h2 := takeWhile_boundary hT.2.1 (boundary_textOf hT.2.2.2 hT.2.2.1)
        rw [hs, h2] at h1
        subst h1
        have : s = textOf T := List.append_cancel_left hs
        subst this
        exact ⟨T, rfl, hb⟩
  · rintro ⟨T', rfl, hb⟩
    rw [textOf_word, List.drop_left]
    exact ⟨List.prefix_append _ _, hb⟩

theorem inMath_sign {c : Char} (h : inMath c = true) : wordChar c = false := by
  simp only [inMath, Bool.or_eq_true, beq_iff_eq] at h
  rcases h with ((((h | h) | h) | h) | h) | h <;> subst h <;> decide

theorem isWord_not_math {c : Char} (h : wordChar c = true) : inMath c = false := by
  cases hm : inMath c with
  | false => rfl
  | true => rw [inMath_sign hm] at h; cases h

theorem thenMath_sign : ∀ c, thenMath (some c) = true → wordChar c = false := fun _ h => inMath_sign h
theorem thenEnd_sign : ∀ c, thenEnd (some c) = true → wordChar c = false := fun _ h => by cases h
theorem thenComma_sign : ∀ c, thenComma (some c) = true → wordChar c = false := fun c h => by
  simp [thenComma] at h; subst h; decide

theorem replGo_skip (pat rep a s : List Char) : replGo pat rep a.length (a ++ s) = replGo pat rep 0 s := by
  induction a with
  | nil => rfl
  | cons c a ih => simp [replGo, ih]

/-- Replacing a word in text made of pieces, when it is part of no other word. -/
theorem replaceAll_textOf {f rep : List Char} (hf : f ≠ []) (hfw : ∀ c ∈ f, wordChar c = true) {T : List Piece}
    (hT : Pieces T) (hsub : ∀ w, Piece.word w ∈ T → w = f ∨ ¬ f <:+: w) :
    replaceAll f rep (textOf T) = T.flatMap fun q => if q = .word f then rep else pieceText q := by
  unfold replaceAll
  induction T with
  | nil => rfl
  | cons q T ih =>
    cases q with
    | sign c =>
      rw [textOf_sign]
      have hnp : f.isPrefixOf (c :: textOf T) = false := by
        cases f with
        | nil => exact absurd rfl hf
        | cons a f =>
          have := hfw a (by simp)
          simp only [List.isPrefixOf, Bool.and_eq_false_iff, beq_eq_false_iff_ne]
          left
          rintro rfl
          rw [hT.1] at this
          cases this
      simp only [replGo, hnp, List.flatMap_cons, Bool.false_eq_true, if_false]
      rw [ih hT.2 (fun w hw => hsub w (by simp [hw]))]
      rfl
    | word w =>
      have ih := ih hT.2.2.2 (fun w hw => hsub w (by simp [hw]))
      have hb := boundary_textOf hT.2.2.2 hT.2.2.1
      rw [textOf_word, List.flatMap_cons]
      by_cases hw : w = f
      · subst hw
        rw [if_pos rfl, ← ih]
        cases w with
        | nil => exact absurd rfl hf
        | cons a w =>
          have : (a :: w).isPrefixOf (a :: (w ++ textOf T)) = true := by
            rw [List.isPrefixOf_iff_prefix]; exact List.prefix_append (a :: w) _
          simp only [List.cons_append, replGo, this, if_true, List.length_cons, Nat.add_sub_cancel]
          rw [replGo_skip]
      · have hni := (hsub w (by simp)).resolve_left hw
        have hne : ¬ (Piece.word w = Piece.word f) := fun h => hw (by injection h)
        rw [if_neg hne, ← ih]
        show replGo f rep 0 (w ++ textOf T) = w ++ _
        have hww := hT.2.1
        clear hT ih hsub hw hne
        induction w with
        | nil => rfl
        | cons a w ihw =>
          have hnp : f.isPrefixOf (a :: (w ++ textOf T)) = false := by
            rw [Bool.eq_false_iff]
            intro h
            rw [List.isPrefixOf_iff_prefix] at h
            obtain ⟨s, hs⟩ := h
            apply hni
            have h1 : (f ++ s).takeWhile wordChar = a :: w := by
              rw [hs]
              exact takeWhile_boundary (w := a :: w) hww hb
            rw [List.takeWhile_append_of_pos hfw] at h1
            exact ⟨[], s.takeWhile wordChar, by simpa using h1⟩
          simp only [List.cons_append, replGo, hnp, Bool.false_eq_true, if_false]
          rw [ihw (fun h => hni (h.trans (List.suffix_cons a w).isInfix)) (fun c hc => hww c (by simp [hc]))]

/-- Replacing one word by another in a piece. -/
def swap (k v : List Char) (q : Piece) : Piece := if q = .word k then .word v else q

/-- Some of the words `k` have been replaced. -/
inductive Steps (k v : List Char) : List Piece → List Piece → Prop where
  | nil : Steps k v [] []
  | cons {a b : Piece} {T T' : List Piece} : (b = a ∨ (a = .word k ∧ b = .word v)) → Steps k v T T' → Steps k v (a :: T) (b :: T')

theorem Steps.refl (k v : List Char) (T : List Piece) : Steps k v T T := by
  induction T with
  | nil => exact .nil
  | cons q T ih => exact .cons (Or.inl rfl) ih

theorem Steps.trans {k v : List Char} {T T' T'' : List Piece} (h : Steps k v T T') (h' : Steps k v T' T'') :
    Steps k v T T'' := by
  induction h generalizing T'' with
  | nil => exact h'
  | cons hab _ ih =>
    cases h' with
    | cons hbc h2 =>
      refine .cons ?_ (ih h2)
      rcases hab with rfl | ⟨rfl, rfl⟩
      · exact hbc
      · rcases hbc with rfl | ⟨_, rfl⟩ <;> exact Or.inr ⟨rfl, rfl⟩

theorem Steps.append {k v : List Char} {A A' B B' : List Piece} (h : Steps k v A A') (h' : Steps k v B B') :
    Steps k v (A ++ B) (A' ++ B') := by
  induction h with
  | nil => exact h'
  | cons hab _ ih => exact .cons hab ih

theorem Steps.swap (k v : List Char) (T : List Piece) : Steps k v T (T.map (swap k v)) := by
  induction T with
  | nil => exact .nil
  | cons q T ih =>
    refine .cons ?_ ih
    unfold Props.swap
    split
    · next h => exact Or.inr ⟨h, rfl⟩
    · exact Or.inl rfl

/-- How often the word `k` occurs. -/
def occ (k : List Char) (T : List Piece) : Nat := T.count (.word k)

theorem Steps.occ_le {k v : List Char} {T T' : List Piece} (h : Steps k v T T') : occ k T' ≤ occ k T := by
  unfold occ
  induction h with
  | nil => exact Nat.le_refl _
  | cons hab _ ih =>
    rw [List.count_cons, List.count_cons]
    rcases hab with rfl | ⟨rfl, rfl⟩
    · omega
    · simp only [beq_self_eq_true, if_true]
      split <;> omega

theorem Steps.length {k v : List Char} {T T' : List Piece} (h : Steps k v T T') : T'.length = T.length := by
  induction h with
  | nil => rfl
  | cons _ _ ih => simp [ih]

theorem Steps.pieces {k v : List Char} (hv : v ≠ []) (hvw : ∀ c ∈ v, wordChar c = true) {T T' : List Piece}
    (h : Steps k v T T') (hT : Pieces T) : Pieces T' := by
  induction h with
  | nil => exact hT
  | @cons a b T T' hab hs ih =>
    cases a with
    | sign c =>
      rcases hab with rfl | ⟨h, _⟩
      · exact ⟨hT.1, ih hT.2⟩
      · cases h
    | word w =>
      have hno : ∀ w' T0, T' ≠ .word w' :: T0 := by
        rintro w' T0 rfl
        cases hs with
        | @cons a0 _ T1 _ hab0 _ =>
          rcases hab0 with rfl | ⟨rfl, _⟩
          · exact hT.2.2.1 _ _ rfl
          · exact hT.2.2.1 _ _ rfl
      rcases hab with rfl | ⟨_, rfl⟩
      · exact ⟨hT.1, hT.2.1, hno, ih hT.2.2.2⟩
      · exact ⟨hv, hvw, hno, ih hT.2.2.2⟩

/-- A pattern matches at the head of the pieces. -/
def ctxHead (k : List Char) : Pat → Bool → List Piece → Bool
  | .mid, _, .sign m :: .word w :: .sign m2 :: _ => inMath m && w == k && inMath m2
  | .first, st, .word w :: .sign m2 :: _ => st && w == k && inMath m2
  | .last, _, [.sign m, .word w] => inMath m && w == k
  | .whole, st, [.word w] => st && w == k
  | .comma, _, .sign m :: .word w :: .sign m2 :: _ => inMath m && w == k && m2 == ','
  | _, _, _ => false

/-- A pattern matches somewhere. -/
def ctxIn (k : List Char) (p : Pat) : Bool → List Piece → Bool
  | _, [] => false
  | st, q :: T => ctxHead k p st (q :: T) || ctxIn k p false T

/-- What a match covers. -/
def groupLen : Pat → Nat
  | .mid => 3
  | .first => 2
  | .last => 2
  | .whole => 1
  | .comma => 3

theorem head_textOf_sign {T : List Piece} (hT : Pieces T) {c : Char} (hc : wordChar c = false) :
    (textOf T).head? = some c ↔ ∃ T', T = .sign c :: T' := by
  cases T with
  | nil => simp [textOf_nil]
  | cons q T =>
    cases q with
    | sign d => simp [textOf_sign]
    | word w =>
      rw [textOf_word]
      cases w with
      | nil => exact absurd rfl hT.1
      | cons a w =>
        simp
        rintro rfl
        rw [hT.2.1 a (by simp)] at hc
        cases hc

theorem textOf_eq_nil {T : List Piece} (hT : Pieces T) : textOf T = [] ↔ T = [] := by
  cases T with
  | nil => simp [textOf_nil]
  | cons q T =>
    cases q with
    | sign d => simp [textOf_sign]
    | word w =>
      rw [textOf_word]
      simp
      intro h
      exact absurd h hT.1

theorem thenMath_textOf {T : List Piece} (hT : Pieces T) :
    thenMath (textOf T).head? = true ↔ ∃ m T', T = .sign m :: T' ∧ inMath m = true := by
  unfold thenMath
  constructor
  · intro h
    cases hh : (textOf T).head? with
    | none => rw [hh] at h; cases h
    | some c =>
      rw [hh] at h
      have hm : inMath c = true := h
      obtain ⟨T', rfl⟩ := (head_textOf_sign hT (inMath_sign hm)).mp hh
      exact ⟨c, T', rfl, hm⟩
  · rintro ⟨m, T', rfl, hm⟩
    exact hm

theorem thenEnd_textOf {T : List Piece} (hT : Pieces T) : thenEnd (textOf T).head? = true ↔ T = [] := by
  unfold thenEnd
  rw [Option.isNone_iff_eq_none, List.head?_eq_none_iff]
  exact textOf_eq_nil hT

theorem thenComma_textOf {T : List Piece} (hT : Pieces T) :
    thenComma (textOf T).head? = true ↔ ∃ T', T = .sign ',' :: T' := by
  unfold thenComma
  rw [beq_iff_eq]
  exact head_textOf_sign hT (by decide)

theorem bool_iff {a b : Bool} (h : a = true ↔ b = true) : a = b := by
  cases a <;> cases b <;> simp_all

theorem ctx_mid (k : List Char) (st : Bool) (T : List Piece) :
    ctxHead k .mid st T = true ↔ ∃ m m2 T', T = .sign m :: .word k :: .sign m2 :: T' ∧ inMath m = true ∧ inMath m2 = true := by
  constructor
  · intro h
    unfold ctxHead at h
    split at h <;> first | contradiction | skip
    simp only [Bool.and_eq_true, beq_iff_eq] at h
    obtain ⟨⟨h1, rfl⟩, h2⟩ := h
    exact ⟨_, _, _, rfl, h1, h2⟩
  · rintro ⟨m, m2, T', rfl, h1, h2⟩
    simp [ctxHead, h1, h2]

theorem ctx_comma (k : List Char) (st : Bool) (T : List Piece) :
    ctxHead k .comma st T = true ↔ ∃ m T', T = .sign m :: .word k :: .sign ',' :: T' ∧ inMath m = true := by
  constructor
  · intro h
    unfold ctxHead at h
    split at h <;> first | contradiction | skip
    simp only [Bool.and_eq_true, beq_iff_eq] at h
    obtain ⟨⟨h1, rfl⟩, rfl⟩ := h
    exact ⟨_, _, rfl, h1⟩
  · rintro ⟨m, T', rfl, h1⟩
    simp [ctxHead, h1]

theorem ctx_last (k : List Char) (st : Bool) (T : List Piece) :
    ctxHead k .last st T = true ↔ ∃ m, T = [.sign m, .word k] ∧ inMath m = true := by
  constructor
  · intro h
    unfold ctxHead at h
    split at h <;> first | contradiction | skip
    simp only [Bool.and_eq_true, beq_iff_eq] at h
    obtain ⟨h1, rfl⟩ := h
    exact ⟨_, rfl, h1⟩
  · rintro ⟨m, rfl, h1⟩
    simp [ctxHead, h1]

theorem ctx_first (k : List Char) (st : Bool) (T : List Piece) :
    ctxHead k .first st T = true ↔ st = true ∧ ∃ m T', T = .word k :: .sign m :: T' ∧ inMath m = true := by
  constructor
  · intro h
    unfold ctxHead at h
    split at h <;> first | contradiction | skip
    simp only [Bool.and_eq_true, beq_iff_eq] at h
    obtain ⟨⟨h1, rfl⟩, h2⟩ := h
    exact ⟨h1, _, _, rfl, h2⟩
  · rintro ⟨h1, m, T', rfl, h2⟩
    simp [ctxHead, h1, h2]

theorem ctx_whole (k : List Char) (st : Bool) (T : List Piece) :
    ctxHead k .whole st T = true ↔ st = true ∧ T = [.word k] := by
  constructor
  · intro h
    unfold ctxHead at h
    split at h <;> first | contradiction | skip
    simp only [Bool.and_eq_true, beq_iff_eq] at h
    obtain ⟨h1, rfl⟩ := h
    exact ⟨h1, rfl⟩
  · rintro ⟨h1, rfl⟩
    simp [ctxHead, h1]

theorem name_math {k : List Char} (hk : k ≠ []) (hkw : ∀ c ∈ k, wordChar c = true) {T : List Piece} (hT : Pieces T) :
    nameThen k thenMath (textOf T) = true ↔ ∃ m T', T = .word k :: .sign m :: T' ∧ inMath m = true := by
  rw [nameThen_iff hk hkw thenMath_sign hT]
  constructor
  · rintro ⟨T', rfl, h⟩
    obtain ⟨m, T'', rfl, hm⟩ := (thenMath_textOf hT.2.2.2).mp h
    exact ⟨m, T'', rfl, hm⟩
  · rintro ⟨m, T', rfl, hm⟩
    exact ⟨_, rfl, hm⟩

theorem name_comma {k : List Char} (hk : k ≠ []) (hkw : ∀ c ∈ k, wordChar c = true) {T : List Piece} (hT : Pieces T) :
    nameThen k thenComma (textOf T) = true ↔ ∃ T', T = .word k :: .sign ',' :: T' := by
  rw [nameThen_iff hk hkw thenComma_sign hT]
  constructor
  · rintro ⟨T', rfl, h⟩
    obtain ⟨T'', rfl⟩ := (thenComma_textOf hT.2.2.2).mp h
    exact ⟨T'', rfl⟩
  · rintro ⟨T', rfl⟩
    exact ⟨_, rfl, rfl⟩

theorem name_end {k : List Char} (hk : k ≠ []) (hkw : ∀ c ∈ k, wordChar c = true) {T : List Piece} (hT : Pieces T) :
    nameThen k thenEnd (textOf T) = true ↔ T = [.word k] := by
  rw [nameThen_iff hk hkw thenEnd_sign hT]
  constructor
  · rintro ⟨T', rfl, h⟩
    rw [thenEnd_textOf hT.2.2.2] at h
    rw [h]
  · rintro rfl
    exact ⟨_, rfl, rfl⟩

/-- A choice made by two equivalent tests. -/
theorem ite_some_eq {a b : Bool} {x y : Nat} (h : a = true ↔ b = true) (hxy : b = true → x = y) :
    (if a then some x else none) = if b then some y else none := by
  cases a <;> cases b <;> simp_all

theorem nameThen_sign {k : List Char} (hk : k ≠ []) (hkw : ∀ c ∈ k, wordChar c = true) {p : Option Char → Bool}
    (hp : ∀ c, p (some c) = true → wordChar c = false) {c : Char} {T : List Piece} (hT : Pieces (.sign c :: T)) :
    nameThen k p (c :: textOf T) = false := by
  rw [Bool.eq_false_iff]
  intro h
  rw [← textOf_sign, nameThen_iff hk hkw hp hT] at h
  obtain ⟨T', h, _⟩ := h
  cases h

/-- Matching in text made of pieces. -/
theorem matchLen_textOf {k : List Char} (hk : k ≠ []) (hkw : ∀ c ∈ k, wordChar c = true) (p : Pat) (st : Bool)
    {T : List Piece} (hT : Pieces T) :
    matchLen k p st (textOf T) = if ctxHead k p st T then some (textOf (T.take (groupLen p))).length else none := by
  cases T with
  | nil => cases p <;> rfl
  | cons q T =>
    cases q with
    | sign c =>
      rw [textOf_sign]
      cases p with
      | mid =>
        refine ite_some_eq ?_ ?_
        · rw [Bool.and_eq_true, name_math hk hkw hT.2, ctx_mid]
          constructor
          · rintro ⟨h1, m, T', rfl, h2⟩
            exact ⟨c, m, T', rfl, h1, h2⟩
          · rintro ⟨m, m2, T', h, h1, h2⟩
            cases h
            exact ⟨h1, m2, T', rfl, h2⟩
        · rw [ctx_mid]
          rintro ⟨m, m2, T', h, -, -⟩
          rw [h]
          simp [groupLen, textOf, pieceText]
      | first =>
        refine ite_some_eq ?_ ?_
        · rw [nameThen_sign hk hkw thenMath_sign hT, ctx_first]
          simp
        · rw [ctx_first]
          rintro ⟨-, m, T', h, -⟩
          cases h
      | last =>
        refine ite_some_eq ?_ ?_
        · rw [Bool.and_eq_true, name_end hk hkw hT.2, ctx_last]
          constructor
          · rintro ⟨h1, rfl⟩
            exact ⟨c, rfl, h1⟩
          · rintro ⟨m, h, h1⟩
            cases h
            exact ⟨h1, rfl⟩
        · rw [ctx_last]
          rintro ⟨m, h, -⟩
          rw [h]
          simp [groupLen, textOf, pieceText]
      | whole =>
        refine ite_some_eq ?_ ?_
        · rw [nameThen_sign hk hkw thenEnd_sign hT, ctx_whole]
          simp
        · rw [ctx_whole]
          rintro ⟨-, h⟩
          cases h
      | comma =>
        refine ite_some_eq ?_ ?_
        · rw [Bool.and_eq_true, name_comma hk hkw hT.2, ctx_comma]
          constructor
          · rintro ⟨h1, T', rfl⟩
            exact ⟨c, T', rfl, h1⟩
          · rintro ⟨m, T', h, h1⟩
            cases h
            exact ⟨h1, T', rfl⟩
        · rw [ctx_comma]
          rintro ⟨m, T', h, -⟩
          rw [h]
          simp [groupLen, textOf, pieceText]
    | word w =>
      cases w with
      | nil => exact absurd rfl hT.1
      | cons a w =>
        have hna : inMath a = false := isWord_not_math (hT.2.1 a (by simp))
        cases p with
        | mid =>
          refine ite_some_eq ?_ ?_
          · rw [hna, ctx_mid]
            simp
          · rw [ctx_mid]
            rintro ⟨m, m2, T', h, -⟩
            cases h
        | last =>
          refine ite_some_eq ?_ ?_
          · rw [hna, ctx_last]
            simp
          · rw [ctx_last]
            rintro ⟨m, h, -⟩
            cases h
        | comma =>
          refine ite_some_eq ?_ ?_
          · rw [hna, ctx_comma]
            simp
          · rw [ctx_comma]
            rintro ⟨m, T', h, -⟩
            cases h
        | first =>
          refine ite_some_eq ?_ ?_
          · rw [Bool.and_eq_true, ctx_first]
            exact and_congr_right fun _ => name_math hk hkw hT
          · rw [ctx_first]
            rintro ⟨-, m, T', h, -⟩
            rw [h]
            simp [groupLen, textOf, pieceText]
        | whole =>
          refine ite_some_eq ?_ ?_
          · rw [Bool.and_eq_true, ctx_whole]
            exact and_congr_right fun _ => name_end hk hkw hT
          · rw [ctx_whole]
            rintro ⟨-, h⟩
            rw [h]
            simp [groupLen, textOf, pieceText]

theorem matchLen_word {k : List Char} (p : Pat) {c : Char} (hc : wordChar c = true) (cs : List Char) :
    matchLen k p false (c :: cs) = none := by
  have := isWord_not_math hc
  cases p <;> simp [matchLen, this]

theorem search_word {k : List Char} (p : Pat) {w : List Char} (hw : ∀ c ∈ w, wordChar c = true) (s : List Char) :
    search k p false (w ++ s) = search k p false s := by
  induction w with
  | nil => rfl
  | cons a w ih =>
    show ((matchLen k p false (a :: (w ++ s))).isSome || search k p false (w ++ s)) = _
    rw [matchLen_word p (hw a (by simp)), ih (fun c hc => hw c (by simp [hc]))]
    rfl

theorem subGo_word {k v : List Char} (p : Pat) {w : List Char} (hw : ∀ c ∈ w, wordChar c = true) (s : List Char) :
    subGo k v p 0 false (w ++ s) = w ++ subGo k v p 0 false s := by
  induction w with
  | nil => rfl
  | cons a w ih =>
    simp only [List.cons_append, subGo, matchLen_word p (hw a (by simp))]
    rw [ih (fun c hc => hw c (by simp [hc]))]

theorem subGo_skip (k v : List Char) (p : Pat) (a s : List Char) :
    subGo k v p a.length false (a ++ s) = subGo k v p 0 false s := by
  induction a with
  | nil => rfl
  | cons c a ih => simp only [List.length_cons, List.cons_append, subGo, ih]

/-- Searching in text made of pieces. -/
theorem search_textOf {k : List Char} (hk : k ≠ []) (hkw : ∀ c ∈ k, wordChar c = true) (p : Pat) (st : Bool)
    {T : List Piece} (hT : Pieces T) : search k p st (textOf T) = ctxIn k p st T := by
  induction T generalizing st with
  | nil => rfl
  | cons q T ih =>
    have hm := matchLen_textOf hk hkw p st hT
    cases q with
    | sign c =>
      rw [textOf_sign] at hm ⊢
      simp only [search, ctxIn, hm, ih false hT.2]
      split <;> simp_all
    | word w =>
      have hT0 := hT
      cases w with
      | nil => exact absurd rfl hT.1
      | cons a w =>
        rw [textOf_word] at hm ⊢
        simp only [List.cons_append] at hm ⊢
        simp only [search, ctxIn, hm]
        rw [search_word p (fun c hc => hT.2.1 c (by simp [hc])), ih false hT.2.2.2]
        split <;> simp_all

theorem ctx_take {k : List Char} {p : Pat} {st : Bool} {T : List Piece} (h : ctxHead k p st T = true) :
    Piece.word k ∈ T.take (groupLen p) := by
  cases p with
  | mid => obtain ⟨m, m2, T', rfl, -⟩ := (ctx_mid _ _ _).mp h; simp [groupLen]
  | first => obtain ⟨-, m, T', rfl, -⟩ := (ctx_first _ _ _).mp h; simp [groupLen]
  | last => obtain ⟨m, rfl, -⟩ := (ctx_last _ _ _).mp h; simp [groupLen]
  | whole => obtain ⟨-, rfl⟩ := (ctx_whole _ _ _).mp h; simp [groupLen]
  | comma => obtain ⟨m, T', rfl, -⟩ := (ctx_comma _ _ _).mp h; simp [groupLen]

theorem pieces_drop {T : List Piece} (hT : Pieces T) (n : Nat) : Pieces (T.drop n) := by
  induction T generalizing n with
  | nil => simpa using hT
  | cons q T ih =>
    cases n with
    | zero => exact hT
    | succ n =>
      cases q with
      | sign c => exact ih hT.2 n
      | word w => exact ih hT.2.2.2 n

theorem pieces_take {T : List Piece} (hT : Pieces T) (n : Nat) : Pieces (T.take n) := by
  induction T generalizing n with
  | nil => simpa using hT
  | cons q T ih =>
    cases n with
    | zero => trivial
    | succ n =>
      cases q with
      | sign c => exact ⟨hT.1, ih hT.2 n⟩
      | word w =>
        refine ⟨hT.1, hT.2.1, ?_, ih hT.2.2.2 n⟩
        intro w' T' h
        cases T with
        | nil => simp at h
        | cons q' T =>
          cases n with
          | zero => simp at h
          | succ n =>
            simp at h
            exact hT.2.2.1 w' T (by rw [h.1])

theorem textOf_append (A B : List Piece) : textOf (A ++ B) = textOf A ++ textOf B := by
  simp [textOf]

theorem textOf_swap (k v : List Char) (T : List Piece) :
    textOf (T.map (swap k v)) = T.flatMap fun q => if q = .word k then v else pieceText q := by
  unfold textOf
  induction T with
  | nil => rfl
  | cons q T ih =>
    rw [List.map_cons, List.flatMap_cons, List.flatMap_cons, ih]
    unfold swap
    split <;> rfl

/-- The only word a match covers is the name. -/
theorem group_words (k : List Char) {T : List Piece} (p : Pat) (st : Bool) (h : ctxHead k p st T = true) :
    ∀ w, Piece.word w ∈ T.take (groupLen p) → w = k := by
  intro w hw
  cases p with
  | mid => obtain ⟨m, m2, T', rfl, -⟩ := (ctx_mid _ _ _).mp h; simpa [groupLen] using hw
  | first => obtain ⟨-, m, T', rfl, -⟩ := (ctx_first _ _ _).mp h; simpa [groupLen] using hw
  | last => obtain ⟨m, rfl, -⟩ := (ctx_last _ _ _).mp h; simpa [groupLen] using hw
  | whole => obtain ⟨-, rfl⟩ := (ctx_whole _ _ _).mp h; simpa [groupLen] using hw
  | comma => obtain ⟨m, T', rfl, -⟩ := (ctx_comma _ _ _).mp h; simpa [groupLen] using hw

theorem occ_swap {k v : List Char} (hkv : k ≠ v) (T : List Piece) : occ k (T.map (swap k v)) = 0 := by
  unfold occ
  rw [List.count_eq_zero]
  intro h
  obtain ⟨q, -, hq⟩ := List.mem_map.mp h
  unfold swap at hq
  split at hq
  · exact hkv (by injection hq with h; exact h.symm)
  · contradiction

/-- One substitution pass over text made of pieces. -/
theorem pass {k v : List Char} (hk : k ≠ []) (hkw : ∀ c ∈ k, wordChar c = true) (hkv : k ≠ v) (p : Pat) (n : Nat) :
    ∀ (st : Bool) (T : List Piece), T.length ≤ n → Pieces T →
      ∃ T', subGo k v p 0 st (textOf T) = textOf T' ∧ Steps k v T T' ∧
        (ctxIn k p st T = true → occ k T' < occ k T) ∧ (ctxIn k p st T = false → T' = T) := by
  induction n with
  | zero =>
    intro st T hn hT
    have : T = [] := List.length_eq_zero_iff.mp (by omega)
    subst this
    exact ⟨[], rfl, .nil, by simp [ctxIn], fun _ => rfl⟩
  | succ n ih =>
    intro st T hn hT
    cases hT0 : T with
    | nil => exact ⟨[], rfl, .nil, by simp [ctxIn], fun _ => rfl⟩
    | cons q T0 =>
      rw [← hT0]
      have hne : T ≠ [] := by rw [hT0]; simp
      have hm := matchLen_textOf hk hkw p st hT
      by_cases hc : ctxHead k p st T = true
      · rw [if_pos hc] at hm
        have hmem := ctx_take hc
        have hG : Pieces (T.take (groupLen p)) := pieces_take hT _
        have hR : Pieces (T.drop (groupLen p)) := pieces_drop hT _
        obtain ⟨R', h1, h2, -, -⟩ := ih false (T.drop (groupLen p)) (by
          rw [List.length_drop]
          have : 0 < groupLen p := by cases p <;> simp [groupLen]
          have : 0 < T.length := List.length_pos_iff.mpr hne
          omega) hR
        have hsplit : T = T.take (groupLen p) ++ T.drop (groupLen p) := (List.take_append_drop _ _).symm
        have hrep := replaceAll_textOf (rep := v) hk hkw hG (fun w hw => Or.inl (group_words k p st hc w hw))
        rw [← textOf_swap] at hrep
        refine ⟨(T.take (groupLen p)).map (swap k v) ++ R', ?_, ?_, ?_, ?_⟩
        · have htxt : textOf T = textOf (T.take (groupLen p)) ++ textOf (T.drop (groupLen p)) := by
            rw [← textOf_append, ← hsplit]
          have hgne : textOf (T.take (groupLen p)) ≠ [] := by
            intro h
            rw [textOf_eq_nil hG] at h
            rw [h] at hmem
            simp at hmem
          rw [textOf_append, ← hrep, ← h1, htxt]
          rw [htxt] at hm
          generalize textOf (T.take (groupLen p)) = g at hm hgne
          generalize textOf (T.drop (groupLen p)) = r at hm
          cases g with
          | nil => exact absurd rfl hgne
          | cons a g =>
            simp only [List.cons_append, List.length_cons] at hm ⊢
            simp only [subGo, hm]
            rw [subGo_skip]
            simp
        · have := (Steps.swap k v (T.take (groupLen p))).append h2
          rwa [← hsplit] at this
        · intro _
          have e1 : occ k ((T.take (groupLen p)).map (swap k v) ++ R') = occ k R' := by
            have := occ_swap hkv (T.take (groupLen p))
            unfold occ at this ⊢
            rw [List.count_append, this, Nat.zero_add]
          have e2 : occ k T = occ k (T.take (groupLen p)) + occ k (T.drop (groupLen p)) := by
            unfold occ
            rw [← List.count_append, ← hsplit]
          have e3 : 0 < occ k (T.take (groupLen p)) := List.count_pos_iff.mpr hmem
          have := h2.occ_le
          omega
        · intro h
          rw [hT0] at hc h
          simp [ctxIn, hc] at h
      · rw [if_neg hc] at hm
        have hcin : ctxIn k p st T = ctxIn k p false T0 := by
          rw [hT0] at hc ⊢
          simp [ctxIn, hc]
        rw [hcin]
        subst hT0
        cases q with
        | sign c =>
          obtain ⟨T', h1, h2, h3, h4⟩ := ih false T0 (by simpa using hn) hT.2
          refine ⟨.sign c :: T', ?_, .cons (Or.inl rfl) h2, ?_, ?_⟩
          · rw [textOf_sign] at hm ⊢
            rw [textOf_sign, ← h1]
            simp only [subGo, hm]
          · intro h
            have := h3 h
            unfold occ at this ⊢
            rw [List.count_cons, List.count_cons]
            omega
          · intro h
            rw [h4 h]
        | word w =>
          obtain ⟨T', h1, h2, h3, h4⟩ := ih false T0 (by simpa using hn) hT.2.2.2
          refine ⟨.word w :: T', ?_, .cons (Or.inl rfl) h2, ?_, ?_⟩
          · cases w with
            | nil => exact absurd rfl hT.1
            | cons a w =>
              rw [textOf_word] at hm ⊢
              rw [textOf_word, ← h1]
              simp only [List.cons_append] at hm ⊢
              simp only [subGo, hm]
              rw [subGo_word p (fun c hc => hT.2.1 c (by simp [hc]))]
          · intro h
            have := h3 h
            unfold occ at this ⊢
            rw [List.count_cons, List.count_cons]
            omega
          · intro h
            rw [h4 h]

/-- The loop for one pattern over text made of pieces. -/
theorem loop {k v : List Char} (hk : k ≠ []) (hkw : ∀ c ∈ k, wordChar c = true) (hkv : k ≠ v) (hv : v ≠ [])
    (hvw : ∀ c ∈ v, wordChar c = true) (p : Pat) (n : Nat) :
    ∀ (T : List Piece), Pieces T → occ k T ≤ n →
      ∃ T', subLoop k v p n (textOf T) = textOf T' ∧ Steps k v T T' ∧ ctxIn k p true T' = false := by
  induction n with
  | zero =>
    intro T hT hn
    obtain ⟨T', h1, h2, -, -⟩ := pass hk hkw hkv p T.length true T (Nat.le_refl _) hT
    refine ⟨T', h1, h2, ?_⟩
    rw [Bool.eq_false_iff]
    intro h
    obtain ⟨T'', -, -, h3, -⟩ := pass hk hkw hkv p T'.length true T' (Nat.le_refl _) (h2.pieces hv hvw hT)
    have := h3 h
    have := h2.occ_le
    omega
  | succ n ih =>
    intro T hT hn
    obtain ⟨T', h1, h2, h3, h4⟩ := pass hk hkw hkv p T.length true T (Nat.le_refl _) hT
    have hT' := h2.pieces hv hvw hT
    unfold subLoop
    rw [h1, search_textOf hk hkw p true hT']
    cases hs : ctxIn k p true T' with
    | false => exact ⟨T', rfl, h2, hs⟩
    | true =>
      have hlt : occ k T' < occ k T := by
        cases hc : ctxIn k p true T with
        | true => exact h3 hc
        | false => rw [h4 hc, hc] at hs; cases hs
      obtain ⟨T'', h5, h6, h7⟩ := ih T' hT' (by omega)
      exact ⟨T'', h5, h2.trans h6, h7⟩

theorem inMath_iff (c : Char) : inMath c = true ↔ c ∈ operators := by
  simp only [inMath, operators, Bool.or_eq_true, beq_iff_eq, List.mem_cons, List.not_mem_nil, or_false]
  grind

theorem Steps.ctxHead {k v : List Char} {T T' : List Piece} (h : Steps k v T T') (p : Pat) (st : Bool)
    (hc : ctxHead k p st T' = true) : Props.ctxHead k p st T = true := by
  have hw : ∀ a, (Piece.word k = a ∨ (a = .word k ∧ Piece.word k = .word v)) → a = .word k := by
    rintro a (rfl | ⟨rfl, -⟩) <;> rfl
  have hs : ∀ a m, (Piece.sign m = a ∨ (a = .word k ∧ Piece.sign m = .word v)) → a = .sign m := by
    rintro a m (rfl | ⟨-, h⟩)
    · rfl
    · cases h
  cases p with
  | mid =>
    obtain ⟨m, m2, T0, rfl, h1, h2⟩ := (ctx_mid _ _ _).mp hc
    cases h with | cons ha h => cases h with | cons hb h => cases h with | cons hd h =>
    rw [hs _ _ ha, hw _ hb, hs _ _ hd]
    exact (ctx_mid _ _ _).mpr ⟨_, _, _, rfl, h1, h2⟩
  | comma =>
    obtain ⟨m, T0, rfl, h1⟩ := (ctx_comma _ _ _).mp hc
    cases h with | cons ha h => cases h with | cons hb h => cases h with | cons hd h =>
    rw [hs _ _ ha, hw _ hb, hs _ _ hd]
    exact (ctx_comma _ _ _).mpr ⟨_, _, rfl, h1⟩
  | first =>
    obtain ⟨h0, m, T0, rfl, h1⟩ := (ctx_first _ _ _).mp hc
    cases h with | cons ha h => cases h with | cons hb h =>
    rw [hw _ ha, hs _ _ hb]
    exact (ctx_first _ _ _).mpr ⟨h0, _, _, rfl, h1⟩
  | last =>
    obtain ⟨m, rfl, h1⟩ := (ctx_last _ _ _).mp hc
    cases h with | cons ha h => cases h with | cons hb h => cases h with | nil =>
    rw [hs _ _ ha, hw _ hb]
    exact (ctx_last _ _ _).mpr ⟨_, rfl, h1⟩
  | whole =>
    obtain ⟨h0, rfl⟩ := (ctx_whole _ _ _).mp hc
    cases h with | cons ha h => cases h with | nil =>
    rw [hw _ ha]
    exact (ctx_whole _ _ _).mpr ⟨h0, rfl⟩

theorem Steps.ctxIn {k v : List Char} {T T' : List Piece} (h : Steps k v T T') (p : Pat) (st : Bool)
    (hc : ctxIn k p st T' = true) : Props.ctxIn k p st T = true := by
  induction h generalizing st with
  | nil => exact hc
  | cons hab hs ih =>
    simp only [Props.ctxIn, Bool.or_eq_true] at hc ⊢
    rcases hc with hc | hc
    · exact Or.inl ((Steps.cons hab hs).ctxHead p st hc)
    · exact Or.inr (ih false hc)

theorem Steps.ctxIn_false {k v : List Char} {T T' : List Piece} (h : Steps k v T T') {p : Pat} {st : Bool}
    (hc : Props.ctxIn k p st T = false) : Props.ctxIn k p st T' = false := by
  rw [Bool.eq_false_iff] at hc ⊢
  exact fun h' => hc (h.ctxIn p st h')

theorem Steps.eq_swap {k v : List Char} {T T' : List Piece} (h : Steps k v T T') (hn : Piece.word k ∉ T') :
    T' = T.map (Props.swap k v) := by
  induction h with
  | nil => rfl
  | cons hab _ ih =>
    rw [List.map_cons, ← ih (fun h => hn (by simp [h]))]
    congr 1
    unfold Props.swap
    rcases hab with rfl | ⟨rfl, rfl⟩
    · rw [if_neg]
      rintro rfl
      exact hn (by simp)
    · rw [if_pos rfl]

/-- The pieces before are related as well. -/
def SamePrev (k v : List Char) (a b : Option Piece) : Prop := b = a ∨ (a = some (.word k) ∧ b = some (.word v))

theorem Steps.placed {k v x : List Char} (hx : x ≠ v) {T T' : List Piece} (h : Steps k v T T') :
    ∀ {a b : Option Piece}, SamePrev k v a b → Placed [x] a T → Placed [x] b T' := by
  induction h with
  | nil => intros; trivial
  | @cons q q' T T' hab hs ih =>
    intro a b hprev hp
    have hnext : SamePrev k v (some q) (some q') := by
      rcases hab with rfl | ⟨rfl, rfl⟩
      · exact Or.inl rfl
      · exact Or.inr ⟨rfl, rfl⟩
    cases q with
    | sign c =>
      rcases hab with rfl | ⟨h, -⟩
      · exact ih hnext hp
      · cases h
    | word w =>
      have hword : ∀ w', q' = .word w' → Placed [x] (some (.word w')) T' := by
        rintro w' rfl
        exact ih hnext hp.2
      rcases hab with rfl | ⟨-, rfl⟩
      · refine ⟨?_, hword _ rfl⟩
        intro hw
        obtain ⟨h1, h2⟩ := hp.1 hw
        constructor
        · rcases h1 with rfl | ⟨c, hc, rfl⟩
          · rcases hprev with rfl | ⟨h, -⟩
            · exact Or.inl rfl
            · cases h
          · rcases hprev with rfl | ⟨h, -⟩
            · exact Or.inr ⟨c, hc, rfl⟩
            · cases h
        · rcases h2 with rfl | ⟨c, T0, rfl, h3⟩
          · cases hs
            exact Or.inl rfl
          · cases hs with
            | @cons _ b0 _ T1 hb0 _ =>
              rcases hb0 with rfl | ⟨h, -⟩
              · refine Or.inr ⟨c, T1, rfl, ?_⟩
                rcases h3 with h3 | ⟨h3, h4⟩
                · exact Or.inl h3
                · refine Or.inr ⟨h3, ?_⟩
                  rcases hprev with rfl | ⟨-, rfl⟩
                  · exact h4
                  · simp
              · cases h
      · refine ⟨?_, hword _ rfl⟩
        intro hw
        simp at hw
        exact absurd hw.symm hx

/-- A name that is well placed is found by one of the patterns. -/
theorem found {k : List Char} {T : List Piece} :
    ∀ {prev : Option Piece}, Placed [k] prev T → Piece.word k ∈ T →
      (∃ p, ctxIn k p prev.isNone T = true) ∨
      (∃ c p, prev = some (.sign c) ∧ ∀ st, ctxHead k p st (.sign c :: T) = true) := by
  induction T with
  | nil => intro prev _ h; simp at h
  | cons q T ih =>
    intro prev hp hmem
    cases q with
    | sign c =>
      have hmem : Piece.word k ∈ T := by simpa using hmem
      rcases ih (prev := some (.sign c)) hp hmem with ⟨p, h⟩ | ⟨c', p, h, h'⟩
      · exact Or.inl ⟨p, by simp only [ctxIn, Bool.or_eq_true]; exact Or.inr h⟩
      · cases h
        exact Or.inl ⟨p, by simp only [ctxIn, Bool.or_eq_true]; exact Or.inl (h' _)⟩
    | word w =>
      by_cases hw : w = k
      · subst hw
        obtain ⟨h1, h2⟩ := hp.1 (by simp)
        rcases h1 with rfl | ⟨c, hc, rfl⟩
        · left
          rcases h2 with rfl | ⟨m, T', rfl, h3⟩
          · exact ⟨.whole, by simp [ctxIn, ctxHead]⟩
          · rcases h3 with h3 | ⟨-, h4⟩
            · exact ⟨.first, by simp [ctxIn, ctxHead, (inMath_iff m).mpr h3]⟩
            · exact absurd rfl h4
        · right
          have hc := (inMath_iff c).mpr hc
          rcases h2 with rfl | ⟨m, T', rfl, h3⟩
          · exact ⟨c, .last, rfl, fun st => (ctx_last _ _ _).mpr ⟨c, rfl, hc⟩⟩
          · rcases h3 with h3 | ⟨rfl, -⟩
            · exact ⟨c, .mid, rfl, fun st => (ctx_mid _ _ _).mpr ⟨c, m, T', rfl, hc, (inMath_iff m).mpr h3⟩⟩
            · exact ⟨c, .comma, rfl, fun st => (ctx_comma _ _ _).mpr ⟨c, T', rfl, hc⟩⟩
      · have hmem : Piece.word k ∈ T := by
          rcases List.mem_cons.mp hmem with h | h
          · injection h with h
            exact absurd h.symm hw
          · exact h
        rcases ih (prev := some (.word w)) hp.2 hmem with ⟨p, h⟩ | ⟨c', p, h, -⟩
        · exact Or.inl ⟨p, by simp only [ctxIn, Bool.or_eq_true]; exact Or.inr h⟩
        · cases h

theorem length_textOf {T : List Piece} (hT : Pieces T) : T.length ≤ (textOf T).length := by
  induction T with
  | nil => simp
  | cons q T ih =>
    cases q with
    | sign c => rw [textOf_sign]; have := ih hT.2; simp; omega
    | word w =>
      rw [textOf_word]
      have := ih hT.2.2.2
      have := List.length_pos_iff.mpr hT.1
      simp
      omega

/-- All patterns for one variable. -/
theorem subVar_textOf {k v : List Char} (hk : k ≠ []) (hkw : ∀ c ∈ k, wordChar c = true) (hkv : k ≠ v) (hv : v ≠ [])
    (hvw : ∀ c ∈ v, wordChar c = true) {T : List Piece} (hT : Pieces T) (hp : Placed [k] none T) {n : Nat}
    (hn : T.length ≤ n) : subVar n k v (textOf T) = textOf (T.map (swap k v)) := by
  have hocc : ∀ {X}, Steps k v T X → occ k X ≤ n := by
    intro X hX
    exact Nat.le_trans hX.occ_le (Nat.le_trans List.count_le_length hn)
  have hpc : ∀ {X}, Steps k v T X → Pieces X := fun hX => hX.pieces hv hvw hT
  obtain ⟨T1, e1, s1, c1⟩ := loop hk hkw hkv hv hvw .mid n T hT (hocc (Steps.refl _ _ _))
  obtain ⟨T2, e2, s2, c2⟩ := loop hk hkw hkv hv hvw .first n T1 (hpc s1) (hocc s1)
  have s2' := s1.trans s2
  obtain ⟨T3, e3, s3, c3⟩ := loop hk hkw hkv hv hvw .last n T2 (hpc s2') (hocc s2')
  have s3' := s2'.trans s3
  obtain ⟨T4, e4, s4, c4⟩ := loop hk hkw hkv hv hvw .whole n T3 (hpc s3') (hocc s3')
  have s4' := s3'.trans s4
  obtain ⟨T5, e5, s5, c5⟩ := loop hk hkw hkv hv hvw .comma n T4 (hpc s4') (hocc s4')
  have s5' := s4'.trans s5
  have hnone : Piece.word k ∉ T5 := by
    intro hmem
    have hp5 : Placed [k] none T5 := s5'.placed hkv (Or.inl rfl) hp
    rcases found hp5 hmem with ⟨p, h⟩ | ⟨c, p, h, -⟩
    · have hall : ∀ p, ctxIn k p true T5 = false := by
        intro p
        cases p with
        | mid => exact (((s2.trans s3).trans s4).trans s5).ctxIn_false c1
        | first => exact ((s3.trans s4).trans s5).ctxIn_false c2
        | last => exact (s4.trans s5).ctxIn_false c3
        | whole => exact s5.ctxIn_false c4
        | comma => exact c5
      rw [show (none : Option Piece).isNone = true from rfl, hall p] at h
      cases h
    · cases h
  have hfin := s5'.eq_swap hnone
  rw [← hfin]
  simp only [subVar, patterns, List.foldl_cons, List.foldl_nil, e1, e2, e3, e4, e5]

/-- A function name with the module before it. -/
def pre (fs : List (List Char)) (q : Piece) : List Piece :=
  match q with
  | .word w => if w ∈ fs then [.word "np".toList, .sign '.', .word w] else [.word w]
  | .sign c => [.sign c]

theorem isWord_func {f : List Char} (hf : f ∈ functions) : f ≠ [] ∧ ∀ c ∈ f, wordChar c = true := by
  have : ∀ f ∈ functions, f ≠ [] ∧ ∀ c ∈ f, wordChar c = true := by decide
  exact this f hf

theorem pieces_append {A B : List Piece} (hA : Pieces A) (hB : Pieces B)
    (h : (∀ w T, B ≠ .word w :: T) ∨ (∀ w T, A ≠ T ++ [.word w])) : Pieces (A ++ B) := by
  induction A with
  | nil => exact hB
  | cons q A ih =>
    cases q with
    | sign c =>
      refine ⟨hA.1, ih hA.2 (h.imp_right fun h w T e => h w (.sign c :: T) (by rw [e]; rfl))⟩
    | word x =>
      refine ⟨hA.1, hA.2.1, ?_, ih hA.2.2.2 (h.imp_right fun h w T e => h w (.word x :: T) (by rw [e]; rfl))⟩
      intro w' T' e
      cases A with
      | nil =>
        rcases h with h | h
        · exact h w' T' e
        · exact h x [] rfl
      | cons q A =>
        simp at e
        exact hA.2.2.1 w' A (by rw [e.1])

theorem pieces_pre {fs : List (List Char)} {T : List Piece} (hT : Pieces T) : Pieces (T.flatMap (pre fs)) := by
  induction T with
  | nil => trivial
  | cons q T ih =>
    cases q with
    | sign c => exact ⟨hT.1, ih hT.2⟩
    | word w =>
      rw [List.flatMap_cons]
      have hnext : ∀ w' T', T.flatMap (pre fs) ≠ .word w' :: T' := by
        intro w' T' e
        cases T with
        | nil => cases e
        | cons q' T =>
          cases q' with
          | sign c => cases e
          | word x => exact hT.2.2.1 x T rfl
      refine pieces_append ?_ (ih hT.2.2.2) (Or.inl hnext)
      unfold pre
      dsimp only
      split
      · refine ⟨by decide, by decide, ?_, by decide, hT.1, hT.2.1, ?_, trivial⟩
        · intro w' T' e; cases e
        · intro w' T' e; cases e
      · refine ⟨hT.1, hT.2.1, ?_, trivial⟩
        intro w' T' e; cases e

theorem replace_func {f : List Char} (hf : f ∈ functions) {T : List Piece} (hT : Pieces T)
    (hsub : ∀ w, Piece.word w ∈ T → w = f ∨ ¬ f <:+: w) :
    replaceAll f ("np.".toList ++ f) (textOf T) = textOf (T.flatMap (pre [f])) := by
  rw [replaceAll_textOf (isWord_func hf).1 (isWord_func hf).2 hT hsub]
  unfold textOf
  rw [List.flatMap_assoc]
  congr 1
  funext q
  cases q with
  | sign c => rfl
  | word w =>
    by_cases h : w = f
    · subst h
      simp [pre, pieceText]
    · simp [pre, pieceText, h]

theorem pre_pre {fs : List (List Char)} {f : List Char} (hf : f ∉ fs) (hnp : f ≠ "np".toList) (T : List Piece) :
    (T.flatMap (pre fs)).flatMap (pre [f]) = T.flatMap (pre (fs ++ [f])) := by
  rw [List.flatMap_assoc]
  congr 1
  funext q
  cases q with
  | sign c => rfl
  | word w =>
    by_cases h : w ∈ fs
    · have : w ≠ f := fun e => hf (e ▸ h)
      have hnp' : ¬ "np".toList = f := fun e => hnp e.symm
      simp only [pre, h, if_true, List.flatMap_cons, List.flatMap_nil, List.mem_singleton, hnp', this, if_false,
        List.mem_append, or_false]
      rfl
    · by_cases h2 : w = f
      · subst h2
        simp [pre, h]
      · simp [pre, h, h2]

theorem mem_pre {fs : List (List Char)} {T : List Piece} {w : List Char} (h : Piece.word w ∈ T.flatMap (pre fs)) :
    w = "np".toList ∨ Piece.word w ∈ T := by
  obtain ⟨q, hq, h⟩ := List.mem_flatMap.mp h
  cases q with
  | sign c => simp [pre] at h
  | word x =>
    unfold pre at h
    dsimp only at h
    split at h
    · simp at h
      rcases h with h | h
      · exact Or.inl h
      · exact Or.inr (h ▸ hq)
    · simp at h
      exact Or.inr (h ▸ hq)

theorem apart_pre {f : List Char} (hf : f ∈ functions) {fs : List (List Char)} {T : List Piece}
    (hT : FunctionsApart T) : ∀ w, Piece.word w ∈ T.flatMap (pre fs) → w = f ∨ ¬ f <:+: w := by
  intro w hw
  rcases mem_pre hw with rfl | h
  · right
    have : ∀ f ∈ functions, ¬ f <:+: "np".toList := by decide
    exact this f hf
  · rcases hT w h with h | h
    · have : ∀ f ∈ functions, ∀ w ∈ functions, w = f ∨ ¬ f <:+: w := by decide
      exact this f hf w h
    · exact Or.inr (h f hf)

theorem prefixFuncs_textOf {T : List Piece} (hT : Pieces T) (ha : FunctionsApart T) :
    prefixFuncs (textOf T) = textOf (T.flatMap (pre functions)) := by
  have h0 : T = T.flatMap (pre []) := by
    conv => lhs; rw [← List.flatMap_singleton' T]
    congr 1
    funext q
    cases q <;> simp [pre]
  have step : ∀ (fs : List (List Char)) (f : List Char), f ∈ functions → f ∉ fs →
      replaceAll f ("np.".toList ++ f) (textOf (T.flatMap (pre fs))) = textOf (T.flatMap (pre (fs ++ [f]))) := by
    intro fs f hf hfs
    rw [replace_func hf (pieces_pre hT) (apart_pre hf ha), pre_pre hfs]
    have : ∀ f ∈ functions, f ≠ "np".toList := by decide
    exact this f hf
  simp only [prefixFuncs, ufuncs, List.foldl_cons, List.foldl_nil]
  conv => lhs; rw [h0]
  rw [step [] _ (by decide) (by decide), step _ _ (by decide) (by decide), step _ _ (by decide) (by decide),
    step _ _ (by decide) (by decide)]
  rfl

theorem placed_sub {vars vars' : List (List Char)} (h : ∀ x ∈ vars', x ∈ vars) {T : List Piece} :
    ∀ {prev : Option Piece}, Placed vars prev T → Placed vars' prev T := by
  induction T with
  | nil => intros; trivial
  | cons q T ih =>
    intro prev hp
    cases q with
    | sign c => exact ih (prev := some (.sign c)) hp
    | word w => exact ⟨fun hw => hp.1 (h w hw), ih hp.2⟩

theorem placed_prev {k : List Char} {T : List Piece} (hT : Pieces T) (hno : ∀ w T', T ≠ .word w :: T') {a b : Option Piece}
    (hp : Placed [k] a T) : Placed [k] b T := by
  cases T with
  | nil => trivial
  | cons q T =>
    cases q with
    | sign c => exact hp
    | word w => exact absurd rfl (hno w T)

theorem placed_pre {k : List Char} (hk : k ∉ functions) (hnp : k ≠ "np".toList) {T : List Piece} (hT : Pieces T) :
    ∀ {prev : Option Piece}, Placed [k] prev T → Placed [k] prev (T.flatMap (pre functions)) := by
  induction T with
  | nil => intros; trivial
  | cons q T ih =>
    intro prev hp
    cases q with
    | sign c => exact ih hT.2 (prev := some (.sign c)) hp
    | word w =>
      rw [List.flatMap_cons]
      have ih' := ih hT.2.2.2 hp.2
      by_cases hw : w ∈ functions
      · have hwk : w ≠ k := fun e => hk (e ▸ hw)
        simp only [pre, hw, if_true]
        refine ⟨?_, ?_, ih'⟩
        · intro h
          simp only [List.mem_singleton] at h
          exact absurd h.symm hnp
        · intro h
          simp only [List.mem_singleton] at h
          exact absurd h hwk
      · simp only [pre, hw, if_false]
        refine ⟨?_, ih'⟩
        intro h
        obtain ⟨h1, h2⟩ := hp.1 h
        refine ⟨h1, ?_⟩
        rcases h2 with rfl | ⟨c, T', rfl, h3⟩
        · exact Or.inl rfl
        · exact Or.inr ⟨c, T'.flatMap (pre functions), rfl, h3⟩

/-- The swaps of all variables, one after the other. -/
theorem fold_vars (vars : List (List Char × List Char)) :
    ∀ {T : List Piece} {n : Nat}, Pieces T → T.length ≤ n →
      (∀ kv ∈ vars, kv.1 ≠ [] ∧ (∀ c ∈ kv.1, wordChar c = true) ∧ kv.2 ≠ [] ∧ (∀ c ∈ kv.2, wordChar c = true)) →
      (∀ kv ∈ vars, ∀ kv' ∈ vars, kv.1 ≠ kv'.2) →
      (∀ kv ∈ vars, Placed [kv.1] none T) →
      vars.foldl (fun s kv => subVar n kv.1 kv.2 s) (textOf T) =
        textOf (vars.foldl (fun T kv => T.map (swap kv.1 kv.2)) T) := by
  induction vars with
  | nil => intros; rfl
  | cons kv vars ih =>
    intro T n hT hn hg hd hp
    obtain ⟨h1, h2, h3, h4⟩ := hg kv (by simp)
    have hkv := hd kv (by simp) kv (by simp)
    rw [List.foldl_cons, List.foldl_cons, subVar_textOf h1 h2 hkv h3 h4 hT (hp kv (by simp)) hn]
    have hs := Steps.swap kv.1 kv.2 T
    exact ih (hs.pieces h3 h4 hT) (by simpa using hn) (fun kv' h => hg kv' (by simp [h]))
      (fun a ha b hb => hd a (by simp [ha]) b (by simp [hb]))
      (fun kv' h => hs.placed (hd kv' (by simp [h]) kv (by simp)) (Or.inl rfl) (hp kv' (by simp [h])))

theorem fold_swap_map (vars : List (List Char × List Char)) (T : List Piece) :
    vars.foldl (fun T kv => T.map (swap kv.1 kv.2)) T = T.map fun q => vars.foldl (fun q kv => swap kv.1 kv.2 q) q := by
  induction vars generalizing T with
  | nil => simp
  | cons kv vars ih => rw [List.foldl_cons, ih, List.map_map]; rfl

theorem fold_swap_other (vars : List (List Char)) {q : Piece} (h : ∀ k ∈ vars, q ≠ .word k) :
    (mapVars vars).foldl (fun q kv => swap kv.1 kv.2 q) q = q := by
  induction vars with
  | nil => rfl
  | cons k vars ih =>
    show (mapVars vars).foldl _ (swap k _ q) = q
    rw [swap, if_neg (h k (by simp))]
    exact ih (fun k' hk => h k' (by simp [hk]))

theorem fold_swap_mem {vars : List (List Char)} (hg : GoodNames vars) {k : List Char} (hk : k ∈ vars) :
    (mapVars vars).foldl (fun q kv => swap kv.1 kv.2 q) (.word k) = .word ("_exec_".toList ++ k) := by
  obtain ⟨hn, -, hd⟩ := hg
  induction vars with
  | nil => simp at hk
  | cons x vars ih =>
    show (mapVars vars).foldl _ (swap x _ (.word k)) = _
    by_cases h : k = x
    · subst h
      rw [swap, if_pos rfl]
      refine fold_swap_other vars ?_
      intro k' hk' e
      injection e with e
      exact hd k' (by simp [hk']) k (by simp) e.symm
    · rw [swap, if_neg (by intro e; injection e with e; exact h e)]
      exact ih ((List.mem_cons.mp hk).resolve_left h) (List.nodup_cons.mp hn).2
        (fun a ha b hb => hd a (by simp [ha]) b (by simp [hb]))

theorem findWords_word {w : List Char} (hw : ∀ c ∈ w, wordChar c = true) (cur s : List Char) :
    findWords cur (w ++ s) = findWords (cur ++ w) s := by
  induction w generalizing cur with
  | nil => simp
  | cons a w ih =>
    simp only [List.cons_append, findWords, isWord_eq, hw a (by simp), if_true]
    rw [ih (fun c hc => hw c (by simp [hc]))]
    simp

/-- The words among the pieces. -/
def wordsOf (T : List Piece) : List (List Char) :=
  T.filterMap fun | .word w => some w | .sign _ => none

theorem findWords_textOf {T : List Piece} (hT : Pieces T) : findWords [] (textOf T) = wordsOf T := by
  induction T with
  | nil => rfl
  | cons q T ih =>
    cases q with
    | sign c =>
      rw [textOf_sign]
      simp only [findWords, isWord_eq, hT.1, Bool.false_eq_true, if_false, if_true]
      exact ih hT.2
    | word w =>
      rw [textOf_word, findWords_word hT.2.1]
      have ih := ih hT.2.2.2
      simp only [List.nil_append]
      cases T with
      | nil => simp [textOf_nil, findWords, hT.1, wordsOf]
      | cons q' T =>
        cases q' with
        | word x => exact absurd rfl (hT.2.2.1 x T)
        | sign c =>
          rw [textOf_sign] at ih ⊢
          simp only [findWords, isWord_eq, hT.2.2.2.1, Bool.false_eq_true, if_false, hT.1, if_true] at ih ⊢
          rw [ih]
          rfl

theorem splitEq_none {s : List Char} (h : '=' ∉ s) (cur : List Char) : splitEq cur s = [cur ++ s] := by
  induction s generalizing cur with
  | nil => simp [splitEq]
  | cons c s ih =>
    have hc : c ≠ '=' := fun e => h (by simp [e])
    simp only [splitEq, hc, if_false]
    rw [ih (fun h' => h (by simp [h']))]
    simp

theorem splitEq_cons {s : List Char} (h : '=' ∉ s) (cur r : List Char) :
    splitEq cur (s ++ '=' :: r) = (cur ++ s) :: splitEq [] r := by
  induction s generalizing cur with
  | nil => simp [splitEq]
  | cons c s ih =>
    have hc : c ≠ '=' := fun e => h (by simp [e])
    simp only [List.cons_append, splitEq, hc, if_false]
    rw [ih (fun h' => h (by simp [h']))]
    simp

theorem mem_wordsOf {T : List Piece} {w : List Char} : w ∈ wordsOf T ↔ Piece.word w ∈ T := by
  unfold wordsOf
  rw [List.mem_filterMap]
  constructor
  · rintro ⟨q, hq, h⟩
    cases q with
    | sign c => cases h
    | word x => simp at h; exact h ▸ hq
  · intro h
    exact ⟨_, h, rfl⟩

theorem hasLetter_iff (w : List Char) : hasLetter w = true ↔ isName w := by
  unfold hasLetter isName
  rw [List.any_eq_true]

theorem mem_names {T : List Piece} (hT : Pieces T) {w : List Char} :
    w ∈ names (textOf T) ↔ Piece.word w ∈ T ∧ isName w := by
  unfold names
  rw [List.mem_filter, findWords_textOf hT, mem_wordsOf, hasLetter_iff]

theorem eq_not_mem {T : List Piece} (hT : Pieces T) (h : Piece.sign '=' ∉ T) : '=' ∉ textOf T := by
  intro hm
  obtain ⟨q, hq, hc⟩ := List.mem_flatMap.mp hm
  cases q with
  | sign c => simp [pieceText] at hc; exact h (hc ▸ hq)
  | word w =>
    have : ∀ w, Piece.word w ∈ T → ∀ c ∈ w, wordChar c = true := by
      clear hm h hq hc w
      induction T with
      | nil => intro w hw; simp at hw
      | cons q T ih =>
        intro w hw
        cases q with
        | sign c => exact ih hT.2 w (by simpa using hw)
        | word x =>
          rcases List.mem_cons.mp hw with e | e
          · injection e with e
            exact e ▸ hT.2.1
          · exact ih hT.2.2.2 w e
    have := this w hq '=' hc
    revert this
    decide

theorem textOf_flatMap (f : Piece → List Piece) (T : List Piece) :
    textOf (T.flatMap f) = T.flatMap fun q => textOf (f q) := by
  unfold textOf
  rw [List.flatMap_assoc]

theorem flatMap_congr_mem {α β : Type} {f g : α → List β} {l : List α} (h : ∀ a ∈ l, f a = g a) :
    l.flatMap f = l.flatMap g := by
  rw [List.flatMap_def, List.flatMap_def, List.map_congr_left h]

theorem exists_pieces (s : List Char) : ∃ T, Pieces T ∧ textOf T = s := by
  induction s with
  | nil => exact ⟨[], trivial, rfl⟩
  | cons c s ih =>
    obtain ⟨T, hT, hs⟩ := ih
    by_cases hc : wordChar c = true
    · cases T with
      | nil =>
        exact ⟨[.word [c]], ⟨by simp, by simpa using hc, by simp, trivial⟩, by rw [← hs]; rfl⟩
      | cons q T =>
        cases q with
        | sign d =>
          exact ⟨.word [c] :: .sign d :: T, ⟨by simp, by simpa using hc, by simp, hT⟩, by rw [← hs]; rfl⟩
        | word w =>
          refine ⟨.word (c :: w) :: T, ⟨by simp, ?_, hT.2.2.1, hT.2.2.2⟩, by rw [← hs]; rfl⟩
          intro d hd
          rcases List.mem_cons.mp hd with rfl | hd
          · exact hc
          · exact hT.2.1 d hd
    · exact ⟨.sign c :: T, ⟨by simpa using hc, hT⟩, by rw [← hs]; rfl⟩

theorem length_splitEq (cur s : List Char) : (splitEq cur s).length = s.count '=' + 1 := by
  induction s generalizing cur with
  | nil => rfl
  | cons c s ih =>
    unfold splitEq
    split
    · next h => subst h; simp [ih]
    · next h => rw [ih, List.count_cons_of_ne (by simpa using h)]

theorem allowed_iff {vars : List (List Char)} {T : List Piece} (hT : Pieces T) :
    ((names (textOf T)).all fun s => ufuncs.contains s || ((mapVars vars).map Prod.fst).contains s) = true ↔
      ∀ w, Piece.word w ∈ T → isName w → w ∈ functions ∨ w ∈ vars := by
  have hv : (mapVars vars).map Prod.fst = vars := by
    unfold mapVars
    rw [List.map_map]
    exact List.map_id' vars
  rw [hv, List.all_eq_true]
  constructor
  · intro h w hw hn
    have := h w ((mem_names hT).mpr ⟨hw, hn⟩)
    simpa [ufuncs_eq] using this
  · intro h w hw
    obtain ⟨h1, h2⟩ := (mem_names hT).mp hw
    simpa [ufuncs_eq] using h w h1 h2

theorem samplePieces_ok : Pieces samplePieces := by
  simp only [samplePieces, Pieces]
  refine ⟨by decide, by decide, by simp, by decide, by decide, by decide, by simp, by decide, by decide, by decide, by simp,
    by decide, by decide, by decide, by decide, by simp, by decide, by decide, by decide, by simp, by decide, by decide,
    by decide, by simp, by decide, by decide, by decide, by simp, by decide, trivial⟩

theorem sampleVars_good : GoodNames sampleVars := by
  refine ⟨by decide, by decide, by decide⟩

theorem samplePieces_placed : Placed sampleVars none samplePieces := by
  simp only [samplePieces, Placed]
  refine ⟨?_, ?_, ?_, ?_, ?_, ?_, ?_, trivial⟩
  · intro h; exact absurd h (by decide)
  · intro h; exact absurd h (by decide)
  · intro _
    exact ⟨Or.inr ⟨'(', by decide, rfl⟩, Or.inr ⟨')', _, rfl, Or.inl (by decide)⟩⟩
  · intro h; exact absurd h (by decide)
  · intro _
    exact ⟨Or.inr ⟨'(', by decide, rfl⟩, Or.inr ⟨'+', _, rfl, Or.inl (by decide)⟩⟩
  · intro _
    exact ⟨Or.inr ⟨'+', by decide, rfl⟩, Or.inr ⟨',', _, rfl, Or.inr ⟨rfl, by simp⟩⟩⟩
  · intro h; exact absurd h (by decide)

theorem samplePieces_words {P : List Char → Prop} (h : ∀ w ∈ wordsOf samplePieces, P w) :
    ∀ w, Piece.word w ∈ samplePieces → P w := fun w hw => h w (mem_wordsOf.mpr hw)

theorem eraseDups_length_gt {l : List (List Char)} :
    l.eraseDups.length > 1 ↔ ∃ a ∈ l, ∃ b ∈ l, a ≠ b := by
  cases l with
  | nil => simp
  | cons x l =>
    rw [List.eraseDups_cons]
    simp only [List.length_cons, gt_iff_lt, Nat.lt_add_left_iff_pos, List.length_pos_iff]
    constructor
    · intro h
      obtain ⟨y, hy⟩ := List.exists_mem_of_ne_nil _ h
      rw [List.mem_eraseDups, List.mem_filter] at hy
      exact ⟨x, by simp, y, by simp [hy.1], fun e => by simp [e] at hy⟩
    · rintro ⟨a, ha, b, hb, hab⟩ h
      have : ∀ y ∈ l, y = x := by
        intro y hy
        by_cases hyx : y = x
        · exact hyx
        · have : y ∈ (l.filter fun b => !b == x).eraseDups := by
            rw [List.mem_eraseDups, List.mem_filter]
            exact ⟨hy, by simpa using hyx⟩
          rw [h] at this
          simp at this
      have all : ∀ y ∈ x :: l, y = x := by
        intro y hy
        rcases List.mem_cons.mp hy with e | e
        · exact e
        · exact this y e
      exact hab ((all a ha).trans (all b hb).symm)

end Ocgis.Props
