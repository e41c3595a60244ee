import Verif.Spec.Text

/-!
# Lemmas on string operations
-/

namespace Ocgis.Props
open Ocgis Ocgis.Text Ocgis.Spec

theorem lstrip_split (s : Text) : ∃ a, s = a ++ lstrip s ∧ (∀ c ∈ a, isBlank c = true) ∧ ∀ c, (lstrip s).head? = some c → isBlank c = false := by
  induction s with
  | nil => exact ⟨[], by simp [lstrip]⟩
  | cons x s ih =>
    obtain ⟨a, h1, h2, h3⟩ := ih
    by_cases hx : isBlank x = true
    · refine ⟨x :: a, ?_, ?_, ?_⟩
      · simp only [lstrip, List.dropWhile_cons, hx, if_true, List.cons_append] at h1 ⊢
        rw [← h1]
      · intro c hc
        simp only [List.mem_cons] at hc
        rcases hc with rfl | hc
        · exact hx
        · exact h2 c hc
      · simpa only [lstrip, List.dropWhile_cons, hx, if_true] using h3
    · refine ⟨[], ?_, by simp, ?_⟩
      · simp [lstrip, hx]
      · intro c hc
        simp only [lstrip, List.dropWhile_cons, hx, Bool.false_eq_true, if_false, List.head?_cons, Option.some.injEq] at hc
        subst hc
        simpa using hx

theorem isBlank_iff (c : Char) : isBlank c = true ↔ Blank c := by
  simp only [isBlank, Blank, Bool.or_eq_true, Bool.and_eq_true, decide_eq_true_eq, List.mem_cons, List.not_mem_nil, or_false]
  omega

theorem isBlank_false (c : Char) : isBlank c = false ↔ ¬Blank c := by
  rw [← isBlank_iff, Bool.not_eq_true]

/-- `Trimmed` in terms of the model's test. -/
theorem trimmed_model (s t : Text) : Trimmed s t ↔
    (∃ a b, s = a ++ t ++ b ∧ (∀ c ∈ a, isBlank c = true) ∧ ∀ c ∈ b, isBlank c = true)
    ∧ (∀ c, t.head? = some c → isBlank c = false) ∧ ∀ c, t.getLast? = some c → isBlank c = false := by
  simp only [isBlank_iff, isBlank_false, Trimmed]

theorem strip_trimmed (s : Text) : Trimmed s (strip s) := by
  rw [trimmed_model]
  obtain ⟨a, h1, h2, h3⟩ := lstrip_split s
  obtain ⟨b, h4, h5, h6⟩ := lstrip_split (lstrip s).reverse
  have h7 : lstrip s = strip s ++ b.reverse := by
    have := congrArg List.reverse h4
    simpa [strip] using this
  refine ⟨⟨a, b.reverse, ?_, h2, ?_⟩, ?_, ?_⟩
  · rw [List.append_assoc, ← h7]; exact h1
  · intro c hc; exact h5 c (by simpa using hc)
  · intro c hc
    apply h3
    rw [h7, List.head?_append, hc]
    rfl
  · intro c hc
    apply h6
    rwa [strip, List.getLast?_reverse] at hc

theorem dropWhile_blank (a t : Text) (ha : ∀ c ∈ a, isBlank c = true) : lstrip (a ++ t) = lstrip t := by
  induction a with
  | nil => rfl
  | cons x a ih =>
    simp only [lstrip, List.cons_append, List.dropWhile_cons, ha x (by simp), if_true]
    exact ih fun c hc => ha c (by simp [hc])

theorem lstrip_id (t : Text) (h : ∀ c, t.head? = some c → isBlank c = false) : lstrip t = t := by
  cases t with
  | nil => rfl
  | cons x t => simp [lstrip, h x rfl]

theorem lstrip_blank (a : Text) (ha : ∀ c ∈ a, isBlank c = true) : lstrip a = [] := by
  simpa [lstrip] using dropWhile_blank a [] ha

theorem trimmed_strip (s t : Text) (h : Trimmed s t) : strip s = t := by
  rw [trimmed_model] at h
  obtain ⟨⟨a, b, rfl, ha, hb⟩, h1, h2⟩ := h
  rw [strip, List.append_assoc, dropWhile_blank a _ ha]
  cases t with
  | nil =>
    rw [List.nil_append, lstrip_blank b hb]; rfl
  | cons x t =>
    rw [lstrip_id ((x :: t) ++ b) (by simpa using h1), List.reverse_append,
      dropWhile_blank _ _ (by simpa using hb), lstrip_id _ (by rw [List.head?_reverse]; exact h2), List.reverse_reverse]

theorem trimmed_iff (s t : Text) : Trimmed s t ↔ strip s = t := by
  constructor
  · exact trimmed_strip s t
  · rintro rfl; exact strip_trimmed s

/-- Continuations of a numeral. -/
inductive Rest : Text → Nat → Nat → Prop
  | nil (n) : Rest [] n n
  | next (s n m c) : c.isDigit = true → Rest s (10 * n + digit c) m → Rest (c :: s) n m
  | under (s n m c) : c.isDigit = true → Rest s (10 * n + digit c) m → Rest ('_' :: c :: s) n m

theorem rest_snoc (s : Text) (n m : Nat) (h : Rest s n m) (c : Char) (hc : c.isDigit = true) :
    Rest (s ++ [c]) n (10 * m + digit c) ∧ Rest (s ++ ['_', c]) n (10 * m + digit c) := by
  induction h with
  | nil n => exact ⟨.next _ _ _ _ hc (.nil _), .under _ _ _ _ hc (.nil _)⟩
  | next s n m d hd _ ih => exact ⟨.next _ _ _ _ hd ih.1, .next _ _ _ _ hd ih.2⟩
  | under s n m d hd _ ih => exact ⟨.under _ _ _ _ hd ih.1, .under _ _ _ _ hd ih.2⟩

theorem numeral_rest (s : Text) (m : Nat) : Numeral s m ↔ ∃ c r, s = c :: r ∧ c.isDigit = true ∧ Rest r (digit c) m := by
  constructor
  · intro h
    induction h with
    | one c hc => exact ⟨c, [], rfl, hc, .nil _⟩
    | next s n d _ hd ih =>
      obtain ⟨c, r, rfl, hc, hr⟩ := ih
      exact ⟨c, r ++ [d], rfl, hc, (rest_snoc _ _ _ hr d hd).1⟩
    | under s n d _ hd ih =>
      obtain ⟨c, r, rfl, hc, hr⟩ := ih
      exact ⟨c, r ++ ['_', d], rfl, hc, (rest_snoc _ _ _ hr d hd).2⟩
  · rintro ⟨c, r, rfl, hc, hr⟩
    have : ∀ (r : Text) (n m : Nat), Rest r n m → ∀ p, Numeral p n → Numeral (p ++ r) m := by
      intro r n m h
      induction h with
      | nil n => intro p hp; simpa using hp
      | next s n m d hd _ ih => intro p hp; simpa using ih (p ++ [d]) (.next _ _ _ hp hd)
      | under s n m d hd _ ih => intro p hp; simpa using ih (p ++ ['_', d]) (.under _ _ _ hp hd)
    exact this r _ m hr [c] (.one c hc)

theorem digits_rest (r : Text) : ∀ n m, digits true n r = some m ↔ Rest r n m := by
  have key : ∀ (k : Nat) (r : Text), r.length ≤ k → ∀ n m, digits true n r = some m ↔ Rest r n m := by
    intro k
    induction k with
    | zero =>
      intro r hr n m
      have : r = [] := by simpa using hr
      subst this
      simp only [digits, if_true, Option.some.injEq]
      constructor
      · rintro rfl; exact .nil _
      · intro h; cases h; rfl
    | succ k ih =>
      intro r hr n m
      cases r with
      | nil =>
        simp only [digits, if_true, Option.some.injEq]
        constructor
        · rintro rfl; exact .nil _
        · intro h; cases h; rfl
      | cons c r =>
        simp only [List.length_cons] at hr
        simp only [digits, if_true]
        by_cases hc : c = '_'
        · subst hc
          rw [if_pos rfl]
          cases r with
          | nil =>
            simp only [digits, Bool.false_eq_true, if_false]
            constructor
            · intro h; simp at h
            · intro h
              cases h with | next _ _ _ _ hd _ => exact absurd hd (by decide)
          | cons d r =>
            simp only [digits]
            simp only [List.length_cons] at hr
            by_cases hd : d = '_'
            · subst hd
              simp only [if_true, Bool.false_eq_true, if_false]
              constructor
              · intro h; simp at h
              · intro h
                cases h with
                | next _ _ _ _ hd _ => exact absurd hd (by decide)
                | under _ _ _ _ hd _ => exact absurd hd (by decide)
            · rw [if_neg hd]
              by_cases hdd : d.isDigit = true
              · rw [if_pos hdd, ih r (by omega)]
                constructor
                · intro h; exact .under _ _ _ _ hdd h
                · intro h
                  cases h with
                  | next _ _ _ _ hd _ => exact absurd hd (by decide)
                  | under _ _ _ _ _ h => exact h
              · rw [if_neg hdd]
                constructor
                · intro h; simp at h
                · intro h
                  cases h with
                  | next _ _ _ _ hd _ => exact absurd hd (by decide)
                  | under _ _ _ _ h _ => exact absurd h hdd
        · rw [if_neg hc]
          by_cases hcd : c.isDigit = true
          · rw [if_pos hcd, ih r (by omega)]
            constructor
            · intro h; exact .next _ _ _ _ hcd h
            · intro h
              cases h with
              | next _ _ _ _ _ h => exact h
              | under _ _ _ _ _ h => exact absurd rfl hc
          · rw [if_neg hcd]
            constructor
            · intro h; simp at h
            · intro h
              cases h with
              | next _ _ _ _ h _ => exact absurd h hcd
              | under _ _ _ _ _ h => exact absurd rfl hc
  exact key r.length r (Nat.le_refl _)

theorem digits_numeral (s : Text) (m : Nat) : digits false 0 s = some m ↔ Numeral s m := by
  rw [numeral_rest]
  cases s with
  | nil => simp [digits]
  | cons c r =>
    simp only [digits, Bool.false_eq_true, if_false]
    by_cases hc : c = '_'
    · subst hc
      rw [if_pos rfl]
      constructor
      · intro h; simp at h
      · rintro ⟨_, _, h, hd, _⟩
        simp only [List.cons.injEq] at h
        rw [← h.1] at hd
        exact absurd hd (by decide)
    · rw [if_neg hc]
      by_cases hd : c.isDigit = true
      · rw [if_pos hd, digits_rest]
        simp only [Nat.mul_zero, Nat.zero_add, List.cons.injEq]
        constructor
        · intro h; exact ⟨c, r, ⟨rfl, rfl⟩, hd, h⟩
        · rintro ⟨_, _, ⟨rfl, rfl⟩, _, h⟩; exact h
      · rw [if_neg hd]
        constructor
        · intro h; simp at h
        · rintro ⟨_, _, h, hd', _⟩
          simp only [List.cons.injEq] at h
          rw [← h.1] at hd'
          exact absurd hd' hd

theorem numeral_head (s : Text) (n : Nat) (h : Numeral s n) : ∃ c r, s = c :: r ∧ c.isDigit = true := by
  obtain ⟨c, r, h1, h2, _⟩ := (numeral_rest s n).1 h
  exact ⟨c, r, h1, h2⟩

theorem signed_iff (s : Text) (i : Int) : signed s = some i ↔ SignedNumeral s i := by
  have hmap : ∀ (f : Nat → Int) (t : Text), (digits false 0 t).map f = some i ↔ ∃ n, Numeral t n ∧ f n = i := by
    intro f t
    rw [Option.map_eq_some_iff]
    constructor
    · rintro ⟨n, h, e⟩; exact ⟨n, (digits_numeral t n).1 h, e⟩
    · rintro ⟨n, h, e⟩; exact ⟨n, (digits_numeral t n).2 h, e⟩
  rw [signed.eq_def]
  split
  · next cs =>
    rw [hmap]
    constructor
    · rintro ⟨n, h, rfl⟩; exact .minus _ _ h
    · intro h
      cases h with
      | plain _ n h => obtain ⟨c, r, e, hd⟩ := numeral_head _ _ h; simp only [List.cons.injEq] at e; rw [← e.1] at hd; exact absurd hd (by decide)
      | minus _ n h => exact ⟨n, h, rfl⟩
  · next cs =>
    rw [hmap]
    constructor
    · rintro ⟨n, h, rfl⟩; exact .plus _ _ h
    · intro h
      cases h with
      | plain _ n h => obtain ⟨c, r, e, hd⟩ := numeral_head _ _ h; simp only [List.cons.injEq] at e; rw [← e.1] at hd; exact absurd hd (by decide)
      | plus _ n h => exact ⟨n, h, rfl⟩
  · next h1 h2 =>
    rw [hmap]
    constructor
    · rintro ⟨n, h, rfl⟩; exact .plain _ _ h
    · intro h
      cases h with
      | plain _ n h => exact ⟨n, h, rfl⟩
      | plus t n _ => exact absurd rfl (h2 t)
      | minus t n _ => exact absurd rfl (h1 t)

theorem toInt_iff (s : Text) (i : Int) : toInt s = some i ↔ IntText s i := by
  rw [toInt, signed_iff]
  constructor
  · intro h; exact ⟨_, strip_trimmed s, h⟩
  · rintro ⟨t, ht, h⟩; rw [trimmed_strip s t ht]; exact h

theorem digit_lower (c : Char) (h : c.isDigit = true) : c.toLower = c := by
  simp only [Char.isDigit, Bool.and_eq_true, decide_eq_true_eq] at h
  have h2 : c.val ≤ 57 := h.2
  simp only [Char.toLower]
  split
  · next hh =>
    exfalso
    have h3 : (65 : UInt32) ≤ c.val := by
      have := hh.1
      simpa using this
    exact absurd (UInt32.le_trans h3 h2) (by decide)
  · rfl

theorem intText_digit (s : Text) (i : Int) (h : IntText s i) : ∃ c ∈ s, c.isDigit = true := by
  obtain ⟨t, ⟨⟨a, b, rfl, _, _⟩, _⟩, h⟩ := h
  have : ∃ c ∈ t, c.isDigit = true := by
    cases h with
    | plain _ _ h => obtain ⟨c, r, rfl, hd⟩ := numeral_head _ _ h; exact ⟨c, by simp, hd⟩
    | plus _ _ h => obtain ⟨c, r, rfl, hd⟩ := numeral_head _ _ h; exact ⟨c, by simp, hd⟩
    | minus _ _ h => obtain ⟨c, r, rfl, hd⟩ := numeral_head _ _ h; exact ⟨c, by simp, hd⟩
  obtain ⟨c, hc, hd⟩ := this
  exact ⟨c, by simp [hc], hd⟩

theorem word_not_int (s w : Text) (hw : lower s = w) (hn : ∀ c ∈ w, c.isDigit = false) : toInt s = none := by
  cases h : toInt s with
  | none => rfl
  | some i =>
    obtain ⟨c, hc, hd⟩ := intText_digit s i ((toInt_iff s i).1 h)
    have : c.toLower ∈ w := by rw [← hw]; exact List.mem_map.2 ⟨c, hc, rfl⟩
    rw [digit_lower c hd] at this
    rw [hn c this] at hd
    exact absurd hd (by decide)

theorem formatBool_iff (s : Text) (b : Bool) : formatBool s = .ok b ↔ BoolText s b := by
  constructor
  · intro h
    rw [formatBool.eq_def] at h
    split at h
    · next i hi =>
      have : b = decide (i ≠ 0) := by
        simp only [Except.ok.injEq] at h
        rw [← h]
        by_cases hz : i = 0 <;> simp [hz]
      rw [this]
      exact .int _ _ ((toInt_iff s i).1 hi)
    · split at h
      · next hw => cases h; exact .yes _ hw
      · split at h
        · next hw => cases h; exact .no _ hw
        · cases h
  · intro h
    cases h with
    | int i h =>
      rw [formatBool.eq_def, (toInt_iff s i).2 h]
      simp only [Except.ok.injEq]
      by_cases hz : i = 0 <;> simp [hz]
    | yes h =>
      have hn : toInt s = none := by
        rcases h with h | h <;> exact word_not_int s _ h (by decide)
      rw [formatBool.eq_def, hn]
      simp only
      rw [if_pos h]
    | no h =>
      have hn : toInt s = none := by
        rcases h with h | h <;> exact word_not_int s _ h (by decide)
      rw [formatBool.eq_def, hn]
      simp only
      rw [if_neg ?_, if_pos h]
      rcases h with h | h <;> rw [h] <;> decide

theorem formatBool_error (s : Text) (e : PyErr) (h : formatBool s = .error e) : e = .valueError := by
  rw [formatBool.eq_def] at h
  split at h
  · cases h
  · split at h
    · cases h
    · split at h
      · cases h
      · cases h; rfl

theorem split_joined (sep : Char) (s : Text) : joined sep (split sep s) = s ∧ split sep s ≠ [] ∧ ∀ w ∈ split sep s, sep ∉ w := by
  induction s with
  | nil => simp [split, joined]
  | cons c s ih =>
    obtain ⟨h1, h2, h3⟩ := ih
    simp only [split]
    split
    · next hc =>
      subst hc
      refine ⟨?_, by simp, ?_⟩
      · cases hs : split c s with
        | nil => exact absurd hs h2
        | cons w ws => rw [hs] at h1; simp [joined, h1]
      · intro w hw
        simp only [List.mem_cons] at hw
        rcases hw with rfl | hw
        · simp
        · exact h3 w hw
    · next hc =>
      cases hs : split sep s with
      | nil => exact absurd hs h2
      | cons w ws =>
        rw [hs] at h1 h3
        simp only
        refine ⟨?_, by simp, ?_⟩
        · cases ws with
          | nil => simp only [joined] at h1 ⊢; rw [h1]
          | cons v ws => simp only [joined, List.cons_append] at h1 ⊢; rw [h1]
        · intro x hx
          simp only [List.mem_cons] at hx
          rcases hx with rfl | hx
          · simp only [List.mem_cons, not_or]
            exact ⟨fun e => hc e.symm, h3 w (by simp)⟩
          · exact h3 x (by simp [hx])

theorem split_unique (sep : Char) (ws : List Text) (h : ws ≠ []) (hw : ∀ w ∈ ws, sep ∉ w) : split sep (joined sep ws) = ws := by
  have one : ∀ (w : Text), sep ∉ w → ∀ rest, split sep (w ++ sep :: rest) = w :: split sep rest := by
    intro w hw rest
    induction w with
    | nil => simp [split]
    | cons c w ih =>
      simp only [List.mem_cons, not_or] at hw
      simp only [List.cons_append, split, if_neg (fun e => hw.1 (Eq.symm e)), ih hw.2]
  have last : ∀ (w : Text), sep ∉ w → split sep w = [w] := by
    intro w hw
    induction w with
    | nil => rfl
    | cons c w ih =>
      simp only [List.mem_cons, not_or] at hw
      simp only [split, if_neg (fun e => hw.1 (Eq.symm e)), ih hw.2]
  induction ws with
  | nil => exact absurd rfl h
  | cons w ws ih =>
    cases ws with
    | nil => exact last w (hw w (by simp))
    | cons v ws =>
      simp only [joined]
      rw [one w (hw w (by simp)), ih (by simp) (fun x hx => hw x (List.mem_cons_of_mem _ hx))]

end Ocgis.Props
