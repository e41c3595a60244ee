import Verif.Spec.SeasonLabel
namespace Ocgis.Proofs.SeasonLabel
open Ocgis.SeasonLabel Spec

theorem letter_ok (m : Nat) (h : 1 ≤ m ∧ m ≤ 12) : ∃ c, letter m = .ok c ∧ c ≠ '-' ∧ c ≠ ' ' := by
  obtain ⟨h1, h2⟩ := h
  have : m = 1 ∨ m = 2 ∨ m = 3 ∨ m = 4 ∨ m = 5 ∨ m = 6 ∨ m = 7 ∨ m = 8 ∨ m = 9 ∨ m = 10 ∨ m = 11 ∨ m = 12 := by omega
  rcases this with rfl | rfl | rfl | rfl | rfl | rfl | rfl | rfl | rfl | rfl | rfl | rfl <;> exact ⟨_, rfl, by decide, by decide⟩

theorem letter_error (m : Nat) (h : m < 1 ∨ 12 < m) : letter m = .error .keyError := by
  unfold letter
  split <;> first | rfl | omega

theorem letters_ok : ∀ ms : List Nat, (∀ m ∈ ms, 1 ≤ m ∧ m ≤ 12) →
    ∃ cs, letters ms = .ok cs ∧ cs.length = ms.length ∧ ∀ c ∈ cs, c ≠ '-' ∧ c ≠ ' '
  | [], _ => ⟨[], rfl, rfl, by simp⟩
  | m :: l, h => by
    obtain ⟨c, hc, h1, h2⟩ := letter_ok m (h m List.mem_cons_self)
    obtain ⟨cs, hcs, hl, ha⟩ := letters_ok l fun x hx => h x (List.mem_cons_of_mem _ hx)
    refine ⟨c :: cs, by simp only [letters, hc, hcs], by simp [hl], fun x hx => ?_⟩
    rcases List.mem_cons.1 hx with rfl | hx
    · exact ⟨h1, h2⟩
    · exact ha x hx

theorem letters_error : ∀ ms : List Nat, (∃ m ∈ ms, m < 1 ∨ 12 < m) → letters ms = .error .keyError
  | [], h => by obtain ⟨m, hm, _⟩ := h; cases hm
  | m :: l, h => by
    by_cases hm : m < 1 ∨ 12 < m
    · simp only [letters, letter_error m hm]
    · obtain ⟨c, hc, _⟩ := letter_ok m (by omega)
      obtain ⟨x, hx, hxx⟩ := h
      rcases List.mem_cons.1 hx with rfl | hx
      · exact absurd hxx hm
      · simp only [letters, hc, letters_error l ⟨x, hx, hxx⟩]

/-- The letters of each season, none failing. -/
inductive Names : List (List Nat) → List (List Char) → Prop
  | nil : Names [] []
  | cons {ms cs l names} : letters ms = .ok cs → Names l names → Names (ms :: l) (cs :: names)

theorem flag_cons_season (ms : List Nat) (l : List Part) : flagOf (.season ms :: l) = flagOf l := by
  have : ((Part.season ms == Part.unique) || (Part.season ms == Part.year)) = false := by simp
  simp [flagOf]

theorem flag_cons (p : Part) (hp : p = .unique ∨ p = .year) (l : List Part) : flagOf (p :: l) = some ((flagOf l).getD p) := by
  have : ((p == Part.unique) || (p == Part.year)) = true := by rcases hp with rfl | rfl <;> rfl
  rw [flagOf, flagOf, List.filter_cons_of_pos (by simpa using this), List.getLast?_cons]

theorem collect_eq : ∀ (g : List Part) (flag : Option Part), (∀ ms ∈ seasonsOf g, ∀ m ∈ ms, 1 ≤ m ∧ m ≤ 12) →
    ∃ names, Names (seasonsOf g) names ∧ collect flag g = .ok (names, (flagOf g).or flag)
  | [], flag, _ => ⟨[], .nil, by simp [collect, flagOf]⟩
  | .unique :: l, flag, h => by
    obtain ⟨names, hn, hc⟩ := collect_eq l (some .unique) h
    refine ⟨names, hn, ?_⟩
    rw [collect, hc, flag_cons _ (Or.inl rfl)]
    cases flagOf l <;> rfl
  | .year :: l, flag, h => by
    obtain ⟨names, hn, hc⟩ := collect_eq l (some .year) h
    refine ⟨names, hn, ?_⟩
    rw [collect, hc, flag_cons _ (Or.inr rfl)]
    cases flagOf l <;> rfl
  | .season ms :: l, flag, h => by
    obtain ⟨cs, hcs, _⟩ := letters_ok ms (h ms List.mem_cons_self)
    obtain ⟨names, hn, hc⟩ := collect_eq l flag fun x hx => h x (List.mem_cons_of_mem _ hx)
    refine ⟨cs :: names, .cons hcs hn, ?_⟩
    simp only [collect, hcs, hc, flag_cons_season]

theorem collect_error : ∀ (g : List Part) (flag : Option Part), (∃ ms ∈ seasonsOf g, ∃ m ∈ ms, m < 1 ∨ 12 < m) →
    collect flag g = .error .keyError
  | [], _, h => by obtain ⟨ms, hm, _⟩ := h; cases hm
  | .unique :: l, _, h => by rw [collect]; exact collect_error l _ h
  | .year :: l, _, h => by rw [collect]; exact collect_error l _ h
  | .season ms :: l, flag, h => by
    by_cases hb : ∃ m ∈ ms, m < 1 ∨ 12 < m
    · simp only [collect, letters_error ms hb]
    · obtain ⟨cs, hcs, _⟩ := letters_ok ms fun m hm => by
        have : ¬ (m < 1 ∨ 12 < m) := fun h' => hb ⟨m, hm, h'⟩
        omega
      have : collect flag l = .error .keyError := by
        apply collect_error
        obtain ⟨x, hx, hxx⟩ := h
        rcases List.mem_cons.1 hx with rfl | hx
        · exact absurd hxx hb
        · exact ⟨x, hx, hxx⟩
      simp only [collect, hcs, this]

theorem cut (c : Char) : ∀ (a b x y : List Char), (∀ z ∈ a, z ≠ c) → (∀ z ∈ b, z ≠ c) → a ++ c :: x = b ++ c :: y → a = b ∧ x = y
  | [], [], x, y, _, _, h => ⟨rfl, by simpa using h⟩
  | [], z :: b, x, y, _, hb, h => by
    simp only [List.nil_append, List.cons_append, List.cons.injEq] at h
    exact absurd h.1.symm (hb z List.mem_cons_self)
  | z :: a, [], x, y, ha, _, h => by
    simp only [List.nil_append, List.cons_append, List.cons.injEq] at h
    exact absurd h.1 (ha z List.mem_cons_self)
  | z :: a, w :: b, x, y, ha, hb, h => by
    simp only [List.cons_append, List.cons.injEq] at h
    obtain ⟨h1, h2⟩ := cut c a b x y (fun q hq => ha q (List.mem_cons_of_mem _ hq)) (fun q hq => hb q (List.mem_cons_of_mem _ hq)) h.2
    exact ⟨by rw [h.1, h1], h2⟩

/-- A name of a season: not empty, only letters. -/
def Good (a : List Char) : Prop := a ≠ [] ∧ ∀ z ∈ a, z ≠ '-' ∧ z ≠ ' '

theorem joined_ne (l : List (List Char)) (a : List Char) (h : Good a) : joined (a :: l) ≠ [] := by
  cases l with
  | nil => exact h.1
  | cons b l => simp [joined]

theorem joined_inj : ∀ l l' : List (List Char), (∀ a ∈ l, Good a) → (∀ a ∈ l', Good a) → joined l = joined l' → l = l'
  | [], [], _, _, _ => rfl
  | [], b :: l', _, h', h => absurd h.symm (joined_ne l' b (h' b List.mem_cons_self))
  | a :: l, [], h, _, he => absurd he (joined_ne l a (h a List.mem_cons_self))
  | [a], [b], _, _, he => by rw [joined, joined] at he; rw [he]
  | [a], b :: c :: l', h, _, he => by
    rw [joined, joined] at he
    have := (h a List.mem_cons_self).2 '-' (by rw [he]; simp)
    exact absurd rfl this.1
  | a :: c :: l, [b], _, h', he => by
    rw [joined, joined] at he
    have := (h' b List.mem_cons_self).2 '-' (by rw [← he]; simp)
    exact absurd rfl this.1
  | a :: c :: l, b :: d :: l', h, h', he => by
    rw [joined, joined] at he
    obtain ⟨h1, h2⟩ := cut '-' a b _ _ (fun z hz => ((h a List.mem_cons_self).2 z hz).1) (fun z hz => ((h' b List.mem_cons_self).2 z hz).1) he
    rw [h1, joined_inj (c :: l) (d :: l') (fun x hx => h x (List.mem_cons_of_mem _ hx)) (fun x hx => h' x (List.mem_cons_of_mem _ hx)) h2]

theorem joined_space : ∀ l : List (List Char), (∀ a ∈ l, Good a) → ∀ z ∈ joined l, z ≠ ' '
  | [], _, z, hz => by cases hz
  | [a], h, z, hz => ((h a List.mem_cons_self).2 z hz).2
  | a :: b :: l, h, z, hz => by
    rw [joined, List.mem_append, List.mem_cons] at hz
    rcases hz with hz | rfl | hz
    · exact ((h a List.mem_cons_self).2 z hz).2
    · decide
    · exact joined_space (b :: l) (fun x hx => h x (List.mem_cons_of_mem _ hx)) z hz

theorem flag_cases (g : List Part) : flagOf g = none ∨ flagOf g = some .unique ∨ flagOf g = some .year := by
  cases h : flagOf g with
  | none => exact Or.inl rfl
  | some p =>
    have := (List.mem_filter.1 (List.mem_of_getLast? h)).2
    simp only [Bool.or_eq_true, beq_iff_eq] at this
    rcases this with rfl | rfl
    · exact Or.inr (Or.inl rfl)
    · exact Or.inr (Or.inr rfl)

theorem ending_inj (a b : List Char) (g g' : List Part) (ha : ∀ z ∈ a, z ≠ ' ') (hb : ∀ z ∈ b, z ≠ ' ')
    (h : a ++ ending (flagOf g) = b ++ ending (flagOf g')) : a = b ∧ flagOf g = flagOf g' := by
  have hu : ending (some .unique) = ' ' :: "(unique)".toList := by decide
  have hy : ending (some .year) = ' ' :: "(year)".toList := by decide
  have hn : ending none = [] := rfl
  have off : ∀ (c d t : List Char), (∀ z ∈ c, z ≠ ' ') → c = d ++ ' ' :: t → False := fun c d t hc he => hc ' ' (by rw [he]; simp) rfl
  rcases flag_cases g with e | e | e <;> rcases flag_cases g' with e' | e' | e' <;> rw [e, e'] at h ⊢ <;>
    simp only [hu, hy, hn, List.append_nil] at h
  · exact ⟨h, rfl⟩
  · exact (off _ _ _ ha h).elim
  · exact (off _ _ _ ha h).elim
  · exact (off _ _ _ hb h.symm).elim
  · exact ⟨(cut ' ' a b _ _ ha hb h).1, rfl⟩
  · exact absurd (cut ' ' a b _ _ ha hb h).2 (by decide)
  · exact (off _ _ _ hb h.symm).elim
  · exact absurd (cut ' ' a b _ _ ha hb h).2 (by decide)
  · exact ⟨(cut ' ' a b _ _ ha hb h).1, rfl⟩

theorem run_months (ms : List Nat) (h : MonthRun ms) : ∀ m ∈ ms, 1 ≤ m ∧ m ≤ 12 := by
  obtain ⟨s, n, _, _, _, rfl⟩ := h
  intro m hm
  obtain ⟨i, _, rfl⟩ := List.mem_map.1 hm
  omega

theorem pair_inj : ∀ s < 12, ∀ t < 12, letter (s % 12 + 1) = letter (t % 12 + 1) → letter ((s + 1) % 12 + 1) = letter ((t + 1) % 12 + 1) → s = t := by
  decide +kernel

theorem letters_cons (m : Nat) (l : List Nat) (cs : List Char) (h : letters (m :: l) = .ok cs) :
    ∃ c r, cs = c :: r ∧ letter m = .ok c ∧ letters l = .ok r := by
  rw [letters] at h
  split at h
  · cases h
  · next c hc =>
    split at h
    · cases h
    · next r hr => cases h; exact ⟨c, r, rfl, hc, hr⟩

theorem run_inj (a b : List Nat) (ha : MonthRun a) (hb : MonthRun b) (cs : List Char) (h : letters a = .ok cs) (h' : letters b = .ok cs) : a = b := by
  have la : a.length = b.length := by
    obtain ⟨_, h1, h2, _⟩ := letters_ok a (run_months a ha)
    obtain ⟨_, h3, h4, _⟩ := letters_ok b (run_months b hb)
    rw [h] at h1; rw [h'] at h3
    cases h1; cases h3
    omega
  obtain ⟨s, n, hs, hn, _, rfl⟩ := ha
  obtain ⟨t, k, ht, hk, _, rfl⟩ := hb
  simp only [List.length_map, List.length_range] at la
  subst la
  obtain ⟨j, rfl⟩ : ∃ j, n = j + 2 := ⟨n - 2, by omega⟩
  have e : List.range (j + 2) = 0 :: 1 :: (List.range j).map (fun i => i + 2) := by
    rw [List.range_succ_eq_map, List.range_succ_eq_map]
    simp [Function.comp_def]
  rw [e] at h h'
  simp only [List.map_cons, Nat.add_zero] at h h'
  obtain ⟨c, r, rfl, h1, h2⟩ := letters_cons _ _ _ h
  obtain ⟨c', r', e', h1', h2'⟩ := letters_cons _ _ _ h'
  cases e'
  obtain ⟨d, q, rfl, h3, _⟩ := letters_cons _ _ _ h2
  obtain ⟨d', q', e', h3', _⟩ := letters_cons _ _ _ h2'
  cases e'
  rw [pair_inj s hs t ht (by rw [h1, h1']) (by rw [h3, h3'])]

theorem names_good (l : List (List Nat)) (names : List (List Char)) (h : Names l names) (hr : ∀ ms ∈ l, MonthRun ms) : ∀ a ∈ names, Good a := by
  induction h with
  | nil => simp
  | @cons ms cs l names hc _ ih =>
    intro a ha
    rcases List.mem_cons.1 ha with rfl | ha
    · have hm := hr ms List.mem_cons_self
      obtain ⟨cs', h1, h2, h3⟩ := letters_ok ms (run_months ms hm)
      rw [hc] at h1; cases h1
      refine ⟨?_, h3⟩
      obtain ⟨s, n, _, hn, _, rfl⟩ := hm
      simp only [List.length_map, List.length_range] at h2
      intro e; rw [e] at h2; simp at h2; omega
    · exact ih (fun x hx => hr x (List.mem_cons_of_mem _ hx)) a ha

theorem names_inj (l : List (List Nat)) (names : List (List Char)) (h : Names l names) (hr : ∀ ms ∈ l, MonthRun ms) :
    ∀ l', Names l' names → (∀ ms ∈ l', MonthRun ms) → l = l' := by
  induction h with
  | nil => intro l' h' _; cases h'; rfl
  | @cons ms cs l names hc _ ih =>
    intro l' h' hr'
    cases h' with
    | @cons ms' _ l' _ hc' ht =>
      rw [run_inj ms ms' (hr _ List.mem_cons_self) (hr' _ List.mem_cons_self) cs hc hc',
        ih (fun x hx => hr x (List.mem_cons_of_mem _ hx)) l' ht (fun x hx => hr' x (List.mem_cons_of_mem _ hx))]

theorem mode_eq (g : List Part) (h : ∀ ms ∈ seasonsOf g, ∀ m ∈ ms, 1 ≤ m ∧ m ≤ 12) :
    ∃ names, Names (seasonsOf g) names ∧ icclimMode g = .ok (joined names ++ ending (flagOf g)) := by
  obtain ⟨names, hn, hc⟩ := collect_eq g none h
  exact ⟨names, hn, by simp only [icclimMode, hc, Option.or_none]⟩

theorem letter_initial : ∀ m < 13, 1 ≤ m → letter m = .ok (initial m) := by decide +kernel

theorem letters_initial : ∀ ms : List Nat, (∀ m ∈ ms, 1 ≤ m ∧ m ≤ 12) → letters ms = .ok (ms.map initial)
  | [], _ => rfl
  | m :: l, h => by
    have hm := h m List.mem_cons_self
    simp only [letters, letter_initial m (by omega) hm.1, letters_initial l fun x hx => h x (List.mem_cons_of_mem _ hx), List.map_cons]

theorem names_initial (l : List (List Nat)) (names : List (List Char)) (h : Names l names) (hm : ∀ ms ∈ l, ∀ m ∈ ms, 1 ≤ m ∧ m ≤ 12) :
    names = l.map (List.map initial) := by
  induction h with
  | nil => rfl
  | @cons ms cs l names hc _ ih =>
    rw [letters_initial ms (hm ms List.mem_cons_self)] at hc
    cases hc
    rw [ih fun x hx => hm x (List.mem_cons_of_mem _ hx), List.map_cons]

theorem joined_eq : ∀ l : List (List Char), joined l = List.intercalate ['-'] l
  | [] => rfl
  | [a] => by simp [joined, List.intercalate]
  | a :: b :: l => by
    rw [joined, joined_eq (b :: l)]
    simp [List.intercalate]

end Ocgis.Proofs.SeasonLabel
