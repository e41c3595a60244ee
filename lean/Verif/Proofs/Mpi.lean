import Verif.Model.Mpi
import Verif.Proofs.Range
namespace Ocgis.Mpi

/-- Closed form of the lower bound of a rank (also of the sections of `np.array_split`). -/
def splitPoint (n size i : Nat) : Nat := i * (n / size) + min i (n % size)

theorem splitPoint_zero (n size : Nat) : splitPoint n size 0 = 0 := by simp [splitPoint]

theorem splitPoint_mono (n size i : Nat) : splitPoint n size i ≤ splitPoint n size (i + 1) := by
  unfold splitPoint
  rw [Nat.succ_mul]
  generalize n / size = q
  generalize n % size = r
  omega

theorem splitPoint_size (n size : Nat) (h : 0 < size) : splitPoint n size size = n := by
  unfold splitPoint
  have := Nat.mod_lt n h
  have h2 := Nat.div_add_mod n size
  rw [Nat.min_eq_right (by omega)]
  exact h2

theorem splitPoint_step (n size i : Nat) :
    splitPoint n size (i + 1) - splitPoint n size i = n / size + (if i < n % size then 1 else 0) := by
  unfold splitPoint
  rw [Nat.succ_mul]
  generalize n / size = q
  generalize n % size = r
  generalize i * q = iq
  split <;> omega

theorem splitPoint_le_of_le (n size : Nat) {i j : Nat} (h : i ≤ j) :
    splitPoint n size i ≤ splitPoint n size j := by
  induction j with
  | zero => have : i = 0 := by omega
            subst this; exact Nat.le_refl _
  | succ j ih =>
    by_cases hj : i = j + 1
    · subst hj; exact Nat.le_refl _
    · exact Nat.le_trans (ih (by omega)) (splitPoint_mono n size j)

theorem getRankBounds_eq (n size rank : Nat) :
    getRankBounds n size rank =
      .ok (if rank < min n size then some (splitPoint n size rank, splitPoint n size (rank + 1)) else none) := by
  unfold getRankBounds
  by_cases hn : n = 0
  · subst hn; simp
  rw [if_neg hn]
  by_cases hr : rank ≥ size
  · rw [if_pos hr, if_neg (by omega)]
  rw [if_neg hr]
  have hr' : rank < size := by omega
  by_cases hgt : n > size
  · rw [if_pos hgt, if_pos (by omega : rank < min n size)]
    have hq : 1 ≤ n / size := (Nat.le_div_iff_mul_le (by omega)).2 (by omega)
    have hdm := Nat.div_add_mod n size
    have hml := Nat.mod_lt n (by omega : size > 0)
    have hmulle : (rank + 1) * (n / size) ≤ size * (n / size) := Nat.mul_le_mul_right _ (by omega)
    have hsucc : (rank + 1) * (n / size) = rank * (n / size) + n / size := Nat.succ_mul _ _
    have hkey : ∀ m, m = size * (n / size) →
        rankBoundsSplit m rank (n / size) = some (rank * (n / size), (rank + 1) * (n / size)) := by
      intro m hm
      unfold rankBoundsSplit
      have e1 : (if rank = 0 then 0 else rank * (n / size)) = rank * (n / size) := by
        split
        · next h => subst h; simp
        · rfl
      simp only [e1]
      have e2 : (if rank * (n / size) + n / size ≥ m then m else rank * (n / size) + n / size)
          = (rank + 1) * (n / size) := by
        split <;> omega
      rw [e2, if_neg (by omega)]
    by_cases hrem : n % size > 0
    · simp only [if_pos hrem]
      have hm : n - n % size = size * (n / size) := by omega
      have hdiv : size * (n / size) / size = n / size := Nat.mul_div_cancel_left _ (by omega)
      have heven : rankBoundsEven (n - n % size) size rank
          = some (rank * (n / size), (rank + 1) * (n / size)) := by
        unfold rankBoundsEven
        rw [hm]
        have hge : size ≤ size * (n / size) := Nat.le_mul_of_pos_right _ (by omega)
        rw [if_neg (by omega), if_neg hr]
        by_cases h1 : size * (n / size) > size
        · rw [if_pos h1, hdiv]; exact hkey _ rfl
        · rw [if_neg h1, if_neg (by omega)]
          have : n / size = 1 := by
            have h3 : size * (n / size) = size * 1 := by omega
            exact Nat.eq_of_mul_eq_mul_left (by omega) h3
          have hk := hkey _ rfl
          rw [this] at hk ⊢
          exact hk
      rw [heven]
      simp only [splitPoint]
      by_cases hle : rank + 1 ≤ n % size
      · rw [if_pos hle, Nat.min_eq_left (by omega), Nat.min_eq_left (by omega)]
        simp; omega
      · rw [if_neg hle, Nat.min_eq_right (by omega), Nat.min_eq_right (by omega)]
    · simp only [if_neg hrem]
      rw [hkey n (by omega)]
      simp only [splitPoint]
      have h0 : n % size = 0 := by omega
      rw [h0]; simp
  · rw [if_neg hgt]
    unfold rankBoundsEven
    rw [if_neg hn, if_neg hr, if_neg hgt]
    by_cases hlt : n < size
    · rw [if_pos hlt]
      have hc : ceilDiv n size = 1 := by
        unfold ceilDiv
        have : n + size - 1 = size * 1 + (n - 1) := by omega
        rw [this, Nat.mul_add_div (by omega), Nat.div_eq_of_lt (by omega)]
      rw [hc]
      have hd : n / size = 0 := Nat.div_eq_of_lt hlt
      have hmod : n % size = n := Nat.mod_eq_of_lt hlt
      unfold rankBoundsSplit splitPoint
      rw [hd, hmod]
      congr 1
      have e1 : (if rank = 0 then 0 else rank * 1) = rank := by split <;> omega
      simp only [e1]
      by_cases hrn : rank < n
      · rw [if_pos (by omega : rank < min n size)]
        split <;> split <;> simp_all <;> omega
      · rw [if_neg (by omega : ¬ rank < min n size)]
        split <;> split <;> simp_all <;> omega
    · rw [if_neg hlt]
      have he : n = size := by omega
      subst he
      unfold rankBoundsSplit splitPoint
      rw [Nat.div_self (by omega), Nat.mod_self]
      congr 1
      have e1 : (if rank = 0 then 0 else rank * 1) = rank := by split <;> omega
      simp only [e1]
      rw [if_pos (by omega : rank < min n n)]
      split <;> simp <;> omega

end Ocgis.Mpi
