import Verif.Spec.TemplateTime
/-!
# Lemmas on times written as dates
-/
namespace Ocgis.Proofs.TemplateTime
open Spec Ocgis.TemplateTime

theorem digits_fuel : ∀ (k n : Nat), n ≤ k → ∀ m, n ≤ m → digitsFrom k n = digitsFrom m n
  | 0, n, h, m, _ => by
    have : n = 0 := by omega
    subst this
    cases m <;> rfl
  | k + 1, n, h, 0, h' => by
    have : n = 0 := by omega
    subst this
    rfl
  | k + 1, n, h, m + 1, h' => by
    rw [digitsFrom, digitsFrom]
    by_cases hn : n < 10
    · rw [if_pos hn, if_pos hn]
    · rw [if_neg hn, if_neg hn, digits_fuel k (n / 10) (by omega) m (by omega)]

theorem digits_small (n : Nat) (h : n < 10) : digits n = [n] := by
  unfold digits
  cases n with
  | zero => rfl
  | succ n => rw [digitsFrom, if_pos h]

theorem digits_step (n : Nat) (h : ¬ n < 10) : digits n = digits (n / 10) ++ [n % 10] := by
  unfold digits
  cases n with
  | zero => simp at h
  | succ n => rw [digitsFrom, if_neg h, digits_fuel n _ (by omega) ((n + 1) / 10) (Nat.le_refl _)]

theorem floor_unique (q : Rat) (a : Int) (h1 : (a : Rat) ≤ q) (h2 : q < (a : Rat) + 1) : q.floor = a := by
  have h3 := Rat.floor_le q
  have h4 := Rat.lt_floor (x := q)
  have h5 : ((q.floor : Int) : Rat) < ((a + 1 : Int) : Rat) := by
    rw [Rat.intCast_add]
    exact Std.lt_of_le_of_lt h3 h2
  have h6 : ((a : Int) : Rat) < ((q.floor + 1 : Int) : Rat) := by
    rw [Rat.intCast_add]
    have : ((1 : Int) : Rat) = 1 := rfl
    grind
  have h7 := Rat.intCast_lt_intCast.1 h5
  have h8 := Rat.intCast_lt_intCast.1 h6
  omega

theorem floor_nat (n : Nat) (f : Rat) (h0 : 0 ≤ f) (h1 : f < 1) : (((n : Nat) : Rat) + f).floor.toNat = n := by
  have : (((n : Nat) : Rat) + f).floor = (n : Int) := by
    apply floor_unique
    · rw [Rat.intCast_natCast]; grind
    · rw [Rat.intCast_natCast]; grind
  rw [this]
  rfl

theorem nat_floor (q : Rat) (h : 0 ≤ q) : ((q.floor.toNat : Nat) : Int) = q.floor := by
  have : (0 : Int) ≤ q.floor := Rat.le_floor_iff.2 (by simpa using h)
  omega

/-- The time of day. -/
theorem minute_of (f : Rat) (h0 : 0 ≤ f) : InMinute f (24 * f).floor.toNat ((24 * f - ((24 * f).floor : Int)) * 60).floor.toNat := by
  have hh : (0 : Rat) ≤ 24 * f := by grind
  have e1 := nat_floor (24 * f) hh
  have a1 := Rat.floor_le (24 * f)
  have a2 := Rat.lt_floor (x := 24 * f)
  have hr : (0 : Rat) ≤ (24 * f - ((24 * f).floor : Int)) * 60 := by grind
  have e2 := nat_floor _ hr
  have b1 := Rat.floor_le ((24 * f - ((24 * f).floor : Int)) * 60)
  have b2 := Rat.lt_floor (x := (24 * f - ((24 * f).floor : Int)) * 60)
  generalize hH : (24 * f).floor = H at *
  generalize hM : ((24 * f - (H : Int)) * 60).floor = M at *
  have c1 : ((H.toNat : Nat) : Rat) = ((H : Int) : Rat) := by rw [← Rat.intCast_natCast, e1]
  have c2 : ((M.toNat : Nat) : Rat) = ((M : Int) : Rat) := by rw [← Rat.intCast_natCast, e2]
  refine ⟨?_, ?_, ?_⟩
  · have : ((M : Int) : Rat) < ((60 : Int) : Rat) := by
      have : ((60 : Int) : Rat) = 60 := rfl
      rw [this]
      have : ((1 : Int) : Rat) = 1 := rfl
      grind
    have := Rat.intCast_lt_intCast.1 this
    omega
  · rw [Rat.natCast_add, Rat.natCast_mul, c1, c2]
    have : ((60 : Nat) : Rat) = 60 := rfl
    grind
  · rw [Rat.natCast_add, Rat.natCast_add, Rat.natCast_mul, c1, c2]
    have h60 : ((60 : Nat) : Rat) = 60 := rfl
    have h1 : ((1 : Nat) : Rat) = 1 := rfl
    have h1' : ((1 : Int) : Rat) = 1 := rfl
    grind

theorem minute_unique (f : Rat) (h m h' m' : Nat) (a : InMinute f h m) (b : InMinute f h' m') : h = h' ∧ m = m' := by
  obtain ⟨a1, a2, a3⟩ := a
  obtain ⟨b1, b2, b3⟩ := b
  have c1 := Rat.natCast_lt_natCast.1 (Std.lt_of_le_of_lt a2 b3)
  have c2 := Rat.natCast_lt_natCast.1 (Std.lt_of_le_of_lt b2 a3)
  omega

/-- What is done with the digits. -/
def dateOf (l : List Nat) : Res (Nat × Nat × Nat) :=
  (number (l.take 4)).bind fun y => (number ((l.drop 4).take 2)).bind fun m => (number ((l.drop 6).take 2)).bind fun d => .ok (y, m, d)

theorem parts_eq (n : Nat) (f : Rat) (h0 : 0 ≤ f) (h1 : f < 1) (h m : Nat) (ht : InMinute f h m) :
    parts (((n : Nat) : Rat) + f) = (dateOf (digits n)).map fun d => ⟨d.1, d.2.1, d.2.2, h, m⟩ := by
  have hq : ((n : Nat) : Rat) + f - ((n : Nat) : Rat) = f := by grind
  obtain ⟨e1, e2⟩ := minute_unique f _ _ _ _ (minute_of f h0) ht
  unfold parts dateOf
  simp only [floor_nat n f h0 h1, hq, e1, e2]
  cases number ((digits n).take 4) with
  | error e => rfl
  | ok y =>
    cases number (((digits n).drop 4).take 2) with
    | error e => rfl
    | ok m =>
      cases number (((digits n).drop 6).take 2) with
      | error e => rfl
      | ok d => rfl

theorem digits8 (n : Nat) (h1 : 10000000 ≤ n) (h2 : n < 100000000) :
    dateOf (digits n) = .ok (n / 10000, n / 100 % 100, n % 100) := by
  rw [digits_step n (by omega), digits_step (n / 10) (by omega), digits_step (n / 10 / 10) (by omega), digits_step (n / 10 / 10 / 10) (by omega),
    digits_step (n / 10 / 10 / 10 / 10) (by omega), digits_step (n / 10 / 10 / 10 / 10 / 10) (by omega),
    digits_step (n / 10 / 10 / 10 / 10 / 10 / 10) (by omega), digits_small _ (by omega)]
  simp only [dateOf, number, List.cons_append, List.nil_append, List.take, List.drop, List.foldl, Except.bind, reduceCtorEq, if_false]
  congr 1
  refine Prod.ext ?_ (Prod.ext ?_ ?_) <;> simp only <;> omega

theorem digits9 (n : Nat) (h1 : 100000000 ≤ n) (h2 : n < 1000000000) :
    dateOf (digits n) = .ok (n / 100000, n / 1000 % 100, n / 10 % 100) := by
  rw [digits_step n (by omega), digits_step (n / 10) (by omega), digits_step (n / 10 / 10) (by omega), digits_step (n / 10 / 10 / 10) (by omega),
    digits_step (n / 10 / 10 / 10 / 10) (by omega), digits_step (n / 10 / 10 / 10 / 10 / 10) (by omega),
    digits_step (n / 10 / 10 / 10 / 10 / 10 / 10) (by omega), digits_step (n / 10 / 10 / 10 / 10 / 10 / 10 / 10) (by omega), digits_small _ (by omega)]
  simp only [dateOf, number, List.cons_append, List.nil_append, List.take, List.drop, List.foldl, Except.bind, reduceCtorEq, if_false]
  congr 1
  refine Prod.ext ?_ (Prod.ext ?_ ?_) <;> simp only <;> omega

theorem digits7 (n : Nat) (h1 : 1000000 ≤ n) (h2 : n < 10000000) :
    dateOf (digits n) = .ok (n / 1000, n / 10 % 100, n % 10) := by
  rw [digits_step n (by omega), digits_step (n / 10) (by omega), digits_step (n / 10 / 10) (by omega), digits_step (n / 10 / 10 / 10) (by omega),
    digits_step (n / 10 / 10 / 10 / 10) (by omega), digits_step (n / 10 / 10 / 10 / 10 / 10) (by omega), digits_small _ (by omega)]
  simp only [dateOf, number, List.cons_append, List.nil_append, List.take, List.drop, List.foldl, Except.bind, reduceCtorEq, if_false]
  congr 1
  refine Prod.ext ?_ (Prod.ext ?_ ?_) <;> simp only <;> omega

theorem digits_length : ∀ (k n : Nat), n < 10 ^ (k + 1) → (digits n).length ≤ k + 1
  | 0, n, h => by rw [digits_small n (by simpa using h)]; simp
  | k + 1, n, h => by
    by_cases hn : n < 10
    · rw [digits_small n hn]; simp
    · rw [digits_step n hn, List.length_append]
      have := digits_length k (n / 10) (by rw [Nat.pow_succ] at h; omega)
      simp only [List.length_cons, List.length_nil]
      omega

theorem digits6 (n : Nat) (h : n < 1000000) : dateOf (digits n) = .error .valueError := by
  have hl := digits_length 5 n (by simpa using h)
  have hd : (digits n).drop 6 = [] := List.drop_eq_nil_of_le hl
  have hnum : ∀ l, (∃ v, number l = .ok v) ∨ number l = .error .valueError := by
    intro l
    unfold number
    by_cases h : l = []
    · rw [if_pos h]; exact Or.inr rfl
    · rw [if_neg h]; exact Or.inl ⟨_, rfl⟩
  have h6 : number (((digits n).drop 6).take 2) = .error .valueError := by rw [hd]; rfl
  unfold dateOf
  rw [h6]
  rcases hnum ((digits n).take 4) with ⟨v, hv⟩ | hv
  · rw [hv]
    rcases hnum (((digits n).drop 4).take 2) with ⟨w, hw⟩ | hw
    · rw [hw]; rfl
    · rw [hw]; rfl
  · rw [hv]; rfl

end Ocgis.Proofs.TemplateTime
