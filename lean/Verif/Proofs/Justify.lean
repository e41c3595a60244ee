import Verif.Spec.Justify
/-!
# Lemmas on breaking texts
-/
namespace Ocgis.Proofs.Justify
open Spec Ocgis.Justify

theorem dropWhile_split (p : Char → Bool) (t : List Char) : ∃ a, t = a ++ t.dropWhile p ∧ ∀ c ∈ a, p c = true := by
  refine ⟨t.takeWhile p, (List.takeWhile_append_dropWhile).symm, ?_⟩
  induction t with
  | nil => intro c hc; cases hc
  | cons c t ih =>
    intro d hd
    rw [List.takeWhile_cons] at hd
    by_cases hp : p c = true
    · rw [if_pos hp] at hd
      rcases List.mem_cons.1 hd with rfl | hd
      · exact hp
      · exact ih d hd
    · rw [if_neg hp] at hd; cases hd

theorem dropWhile_head (p : Char → Bool) (t : List Char) : ∀ c, (t.dropWhile p).head? = some c → p c = false := by
  induction t with
  | nil => intro c hc; cases hc
  | cons d t ih =>
    intro c hc
    rw [List.dropWhile_cons] at hc
    by_cases hp : p d = true
    · rw [if_pos hp] at hc
      exact ih c hc
    · rw [if_neg hp] at hc
      cases hc
      simpa using hp

theorem strip_spec (t : List Char) : Stripped t (strip t) := by
  obtain ⟨a, ha, hab⟩ := dropWhile_split isBlank t
  obtain ⟨b, hb, hbb⟩ := dropWhile_split isBlank (t.dropWhile isBlank).reverse
  have hmid : t.dropWhile isBlank = strip t ++ b.reverse := by
    have := congrArg List.reverse hb
    rw [List.reverse_reverse, List.reverse_append] at this
    exact this
  refine ⟨⟨a, b.reverse, ?_, hab, ?_⟩, ?_, ?_⟩
  · rw [List.append_assoc, ← hmid]; exact ha
  · intro c hc
    exact hbb c (List.mem_reverse.1 hc)
  · intro c hc
    have : (t.dropWhile isBlank).head? = some c := by
      rw [hmid, List.head?_append, hc]; rfl
    exact dropWhile_head isBlank t c this
  · intro c hc
    unfold strip at hc
    rw [List.getLast?_reverse] at hc
    exact dropWhile_head isBlank _ c hc

theorem split_ne (t : List Char) : split t ≠ [] := by
  cases t with
  | nil => simp [split]
  | cons c t =>
    rw [split]
    by_cases h : c = ' '
    · rw [if_pos h]; simp
    · rw [if_neg h]
      cases split t <;> simp

theorem join_cons (w : List Char) (ws : List (List Char)) (h : ws ≠ []) : join (w :: ws) = w ++ ' ' :: join ws := by
  cases ws with
  | nil => exact absurd rfl h
  | cons v ws => rfl

theorem split_spec : ∀ t : List Char, WordsOf t (split t)
  | [] => ⟨by simp [split], by simp [split], rfl⟩
  | c :: t => by
    obtain ⟨h1, h2, h3⟩ := split_spec t
    refine ⟨split_ne _, ?_⟩
    rw [split]
    by_cases h : c = ' '
    · rw [if_pos h]
      refine ⟨?_, ?_⟩
      · intro w hw
        rcases List.mem_cons.1 hw with rfl | hw
        · simp
        · exact h2 w hw
      · rw [join_cons _ _ h1, h3, h]; rfl
    · rw [if_neg h]
      cases hs : split t with
      | nil => exact absurd hs h1
      | cons w ws =>
        rw [hs] at h2 h3
        refine ⟨?_, ?_⟩
        · intro v hv
          rcases List.mem_cons.1 hv with rfl | hv
          · simp only [List.mem_cons, not_or]
            exact ⟨Ne.symm h, h2 w (List.mem_cons_self ..)⟩
          · exact h2 v (List.mem_cons_of_mem _ hv)
        · rw [← h3]
          cases ws with
          | nil => rfl
          | cons v ws => rfl

theorem words_unique : ∀ (ws vs : List (List Char)), ws ≠ [] → vs ≠ [] → (∀ w ∈ ws, ' ' ∉ w) → (∀ w ∈ vs, ' ' ∉ w) → join ws = join vs → ws = vs := by
  intro ws
  have cut : ∀ (a b x y : List Char), ' ' ∉ a → ' ' ∉ b → a ++ ' ' :: x = b ++ ' ' :: y → a = b ∧ x = y := by
    intro a
    induction a with
    | nil =>
      intro b x y _ hb h
      cases b with
      | nil => simp at h; exact ⟨rfl, h⟩
      | cons c b =>
        simp only [List.nil_append, List.cons_append, List.cons.injEq] at h
        exact absurd (h.1 ▸ List.mem_cons_self ..) hb
    | cons c a ih =>
      intro b x y ha hb h
      cases b with
      | nil =>
        simp only [List.nil_append, List.cons_append, List.cons.injEq] at h
        exact absurd (h.1 ▸ List.mem_cons_self ..) ha
      | cons d b =>
        simp only [List.cons_append, List.cons.injEq] at h
        simp only [List.mem_cons, not_or] at ha hb
        obtain ⟨h1, h2⟩ := ih b x y ha.2 hb.2 h.2
        exact ⟨by rw [h.1, h1], h2⟩
  induction ws with
  | nil => intro vs h; exact absurd rfl h
  | cons w ws ih =>
    intro vs _ hv h1 h2 h
    cases vs with
    | nil => exact absurd rfl hv
    | cons v vs =>
      have hw := h1 w (List.mem_cons_self ..)
      have hv' := h2 v (List.mem_cons_self ..)
      by_cases hws : ws = []
      · subst hws
        by_cases hvs : vs = []
        · subst hvs
          simp only [join] at h
          rw [h]
        · rw [join_cons v vs hvs] at h
          simp only [join] at h
          exact absurd (h ▸ (by simp)) hw
      · by_cases hvs : vs = []
        · subst hvs
          rw [join_cons w ws hws] at h
          simp only [join] at h
          exact absurd (h ▸ (by simp)) hv'
        · rw [join_cons w ws hws, join_cons v vs hvs] at h
          obtain ⟨h3, h4⟩ := cut w v _ _ hw hv' h
          rw [h3, ih vs hws hvs (fun x hx => h1 x (List.mem_cons_of_mem _ hx)) (fun x hx => h2 x (List.mem_cons_of_mem _ hx)) h4]

theorem split_unique (t : List Char) (ws : List (List Char)) (h : WordsOf t ws) : split t = ws := by
  obtain ⟨h1, h2, h3⟩ := split_spec t
  exact words_unique _ _ h1 h.1 h2 h.2.1 (h3.trans h.2.2.symm)

theorem mem_join (w : List Char) : ∀ ws : List (List Char), w ∈ ws → w.length ≤ (join ws).length
  | [], h => by cases h
  | [v], h => by
    rcases List.mem_cons.1 h with rfl | h
    · exact Nat.le_refl _
    · cases h
  | v :: u :: ws, h => by
    rw [join, List.length_append, List.length_cons]
    rcases List.mem_cons.1 h with rfl | h
    · omega
    · have := mem_join w (u :: ws) h
      omega

theorem fill_spec (edge : Int) : ∀ (ws row : List (List Char)),
    ∃ taken, (fill edge row ws).1 = row ++ taken ∧ ws = taken ++ (fill edge row ws).2.1 ∧
      ((fill edge row ws).2.2 = true → (fill edge row ws).2.1 = [] ∧ ((join (fill edge row ws).1).length : Int) ≤ edge) ∧
      ((fill edge row ws).2.2 = false → edge < ((join (fill edge row ws).1).length : Int) ∧
        (taken ≠ [] → ((join (fill edge row ws).1.dropLast).length : Int) ≤ edge))
  | [], row => by
    refine ⟨[], by simp [fill], by simp [fill], ?_, ?_⟩
    · intro h
      simp only [fill, decide_eq_true_eq] at h ⊢
      exact ⟨trivial, h⟩
    · intro h
      simp only [fill, decide_eq_false_iff_not] at h ⊢
      exact ⟨by omega, fun h => absurd rfl h⟩
  | w :: ws, row => by
    rw [fill]
    by_cases hl : ((join row).length : Int) ≤ edge
    · rw [if_pos hl]
      obtain ⟨taken, h1, h2, h3, h4⟩ := fill_spec edge ws (row ++ [w])
      refine ⟨w :: taken, by rw [h1]; simp, by rw [List.cons_append, ← h2], h3, ?_⟩
      intro hf
      refine ⟨(h4 hf).1, fun _ => ?_⟩
      by_cases ht : taken = []
      · rw [h1, ht, List.append_nil, List.dropLast_concat]
        exact hl
      · exact (h4 hf).2 ht
    · rw [if_neg hl]
      refine ⟨[], by simp, rfl, ?_, ?_⟩
      · intro h; cases h
      · intro _
        exact ⟨by simp only; omega, fun h => absurd rfl h⟩

/-- One turn. -/
theorem turn (edge : Int) (he : 0 ≤ edge) (n : Nat) (words : List (List Char)) :
    (((join words).length : Int) ≤ edge ∧ rowsOf edge (n + 1) words = some [join words]) ∨
    ∃ row w rest, words = row ++ w :: rest ∧ ((join row).length : Int) ≤ edge ∧ edge < ((join (row ++ [w])).length : Int) ∧
      rowsOf edge (n + 1) words = (rowsOf edge n (w :: rest)).map (join row :: ·) := by
  obtain ⟨taken, h1, h2, h3, h4⟩ := fill_spec edge words []
  rw [List.nil_append] at h1
  rw [rowsOf]
  simp only
  cases hd : (fill edge [] words).2.2 with
  | true =>
    left
    obtain ⟨h5, h6⟩ := h3 hd
    rw [h5, List.append_nil] at h2
    rw [if_pos rfl]
    rw [h1, ← h2] at h6
    rw [h1, ← h2]
    exact ⟨h6, rfl⟩
  | false =>
    right
    obtain ⟨h5, h6⟩ := h4 hd
    have hne : taken ≠ [] := by
      intro h
      rw [h1, h] at h5
      simp only [join, List.length_nil] at h5
      omega
    have h7 := h6 hne
    rw [h1] at h5 h7
    have hcat : taken = taken.dropLast ++ [taken.getLast hne] := (List.dropLast_concat_getLast hne).symm
    refine ⟨taken.dropLast, taken.getLast hne, (fill edge [] words).2.1, ?_, h7, ?_, ?_⟩
    · calc words = taken ++ (fill edge [] words).2.1 := h2
        _ = (taken.dropLast ++ [taken.getLast hne]) ++ (fill edge [] words).2.1 := by rw [← hcat]
        _ = _ := by simp
    · rw [← hcat]; exact h5
    · rw [if_neg (by simp), h1, if_pos (by omega)]
      have : words.drop taken.dropLast.length = taken.getLast hne :: (fill edge [] words).2.1 := by
        have hw : words = taken.dropLast ++ (taken.getLast hne :: (fill edge [] words).2.1) := by
          calc words = taken ++ (fill edge [] words).2.1 := h2
            _ = (taken.dropLast ++ [taken.getLast hne]) ++ (fill edge [] words).2.1 := by rw [← hcat]
            _ = _ := by simp
        calc words.drop taken.dropLast.length = (taken.dropLast ++ (taken.getLast hne :: (fill edge [] words).2.1)).drop taken.dropLast.length := by
              rw [← hw]
          _ = _ := by rw [List.drop_left]
      rw [this]

theorem rowsOf_ok (width : Nat) : ∀ (n : Nat) (words : List (List Char)), words ≠ [] → words.length ≤ n → (∀ w ∈ words, w.length ≤ width) →
    ∃ rows, rowsOf (width : Int) n words = some rows ∧ FilledRows words width rows
  | 0, words, hne, hn, _ => by
    cases words with
    | nil => exact absurd rfl hne
    | cons w ws => simp at hn
  | n + 1, words, hne, hn, hw => by
    rcases turn (width : Int) (by omega) n words with ⟨h1, h2⟩ | ⟨row, w, rest, h1, h2, h3, h4⟩
    · refine ⟨_, h2, [words], by simp, rfl, by simpa using hne, ?_, ?_⟩
      · intro r hr
        rcases List.mem_cons.1 hr with rfl | hr
        · omega
        · cases hr
      · intro i g v h hg hv
        simp at hv
    · have hrow : row ≠ [] := by
        intro h
        rw [h] at h3
        simp only [List.nil_append, join] at h3
        have := hw w (by rw [h1]; simp)
        omega
      have hlen : (w :: rest).length ≤ n := by
        have : words.length = row.length + (w :: rest).length := by rw [h1, List.length_append]
        have : 0 < row.length := List.length_pos_iff.2 hrow
        omega
      obtain ⟨rows, h5, groups, g1, g2, g3, g4, g5⟩ := rowsOf_ok width n (w :: rest) (by simp) hlen
        (fun v hv => hw v (by rw [h1]; exact List.mem_append_right _ hv))
      refine ⟨join row :: rows, by rw [h4, h5]; rfl, row :: groups, by rw [List.flatten_cons, g1, h1], by rw [g2]; rfl, ?_, ?_, ?_⟩
      · intro g hg
        rcases List.mem_cons.1 hg with rfl | hg
        · exact hrow
        · exact g3 g hg
      · intro r hr
        rcases List.mem_cons.1 hr with rfl | hr
        · omega
        · exact g4 r hr
      · intro i g v h hg hv
        cases i with
        | zero =>
          simp only [List.getElem?_cons_zero, Option.some.injEq] at hg
          subst hg
          simp only [List.getElem?_cons_succ] at hv
          cases groups with
          | nil => simp at hv
          | cons g' gs =>
            simp only [List.getElem?_cons_zero, Option.some.injEq] at hv
            subst hv
            simp only [List.flatten_cons, List.cons_append, List.cons.injEq] at g1
            rw [g1.1]
            omega
        | succ i =>
          simp only [List.getElem?_cons_succ] at hg hv
          exact g5 i g v h hg hv

theorem rowsOf_stuck (edge : Int) (he : 0 ≤ edge) : ∀ (n : Nat) (words : List (List Char)), (∃ w ∈ words, edge < (w.length : Int)) →
    rowsOf edge n words = none
  | 0, _, _ => rfl
  | n + 1, words, ⟨v, hv, hl⟩ => by
    rcases turn edge he n words with ⟨h1, -⟩ | ⟨row, w, rest, h1, h2, h3, h4⟩
    · have := mem_join v words hv
      omega
    · rw [h4, rowsOf_stuck edge he n (w :: rest)]
      · rfl
      · rw [h1] at hv
        rcases List.mem_append.1 hv with hv | hv
        · have := mem_join v row hv
          omega
        · exact ⟨v, hv, hl⟩

theorem rowsOf_more (edge : Int) (he : 0 ≤ edge) : ∀ (n m : Nat) (words rows : List (List Char)), rowsOf edge n words = some rows → n ≤ m →
    rowsOf edge m words = some rows
  | 0, _, _, _, h, _ => by cases h
  | n + 1, 0, _, _, _, h => by omega
  | n + 1, m + 1, words, rows, h, hm => by
    rw [rowsOf] at h ⊢
    simp only at h ⊢
    by_cases hd : (fill edge [] words).2.2 = true
    · rw [if_pos hd] at h ⊢
      exact h
    · rw [if_neg hd] at h ⊢
      rw [Option.map_eq_some_iff] at h ⊢
      obtain ⟨r, hr, h⟩ := h
      exact ⟨r, rowsOf_more edge he n m _ r hr (by omega), h⟩

end Ocgis.Proofs.Justify
