import Verif.Model.ScripChunk
import Verif.Spec.ScripChunk
import Verif.Proofs.Mpi
namespace Ocgis.Proofs.ScripChunk
open Ocgis.ScripChunk Spec Ocgis.Mpi

theorem mem_insertOnce (x z : Rat) (l : List Rat) : z ∈ insertOnce x l ↔ z = x ∨ z ∈ l := by
  induction l with
  | nil => simp [insertOnce]
  | cons y l ih =>
    rw [insertOnce]
    split
    · simp
    · split
      · next h => subst h; simp
      · simp only [List.mem_cons, ih]
        constructor
        · rintro (h | h | h)
          · exact Or.inr (Or.inl h)
          · exact Or.inl h
          · exact Or.inr (Or.inr h)
        · rintro (h | h | h)
          · exact Or.inr (Or.inl h)
          · exact Or.inl h
          · exact Or.inr (Or.inr h)

theorem mem_uniqueSorted (z : Rat) (l : List Rat) : z ∈ uniqueSorted l ↔ z ∈ l := by
  induction l with
  | nil => simp [uniqueSorted]
  | cons x l ih => rw [uniqueSorted, mem_insertOnce, ih, List.mem_cons]

theorem insertOnce_sorted (x : Rat) (l : List Rat) (h : l.Pairwise (· < ·)) : (insertOnce x l).Pairwise (· < ·) := by
  induction l with
  | nil => simp [insertOnce]
  | cons y l ih =>
    have h' := List.pairwise_cons.1 h
    rw [insertOnce]
    split
    · next hx =>
      refine List.pairwise_cons.2 ⟨fun z hz => ?_, h⟩
      rcases List.mem_cons.1 hz with rfl | hz
      · exact hx
      · have := h'.1 z hz
        grind
    · split
      · exact h
      · next h1 h2 =>
        refine List.pairwise_cons.2 ⟨fun z hz => ?_, ih h'.2⟩
        rcases (mem_insertOnce x z l).1 hz with rfl | hz
        · grind
        · exact h'.1 z hz

theorem uniqueSorted_sorted (l : List Rat) : (uniqueSorted l).Pairwise (· < ·) := by
  induction l with
  | nil => exact .nil
  | cons x l ih => exact insertOnce_sorted x _ ih

theorem split_prefix {α} (xs : List α) (k : Nat) : ∀ j, ((List.range j).map fun i =>
    (xs.drop (splitPoint xs.length k i)).take (splitPoint xs.length k (i + 1) - splitPoint xs.length k i)).flatten =
      xs.take (splitPoint xs.length k j) := by
  intro j
  induction j with
  | zero => simp [splitPoint]
  | succ j ih =>
    rw [List.range_succ, List.map_append, List.flatten_append, ih]
    have := splitPoint_mono xs.length k j
    have e : splitPoint xs.length k (j + 1) = splitPoint xs.length k j + (splitPoint xs.length k (j + 1) - splitPoint xs.length k j) := by omega
    conv => rhs; rw [e, List.take_add]
    simp

theorem arraySplit_flatten {α} (xs : List α) (k : Nat) (hk : 0 < k) : (arraySplit xs k).flatten = xs := by
  have h := split_prefix xs k k
  rw [splitPoint_size _ _ hk, List.take_length] at h
  exact h

theorem arraySplit_length {α} (xs : List α) (k : Nat) : (arraySplit xs k).length = k := by simp [arraySplit]

theorem pieces_less (xs : List Rat) (k : Nat) (hk : 0 < k) (hs : xs.Pairwise (· < ·)) (i j : Nat) (hi : i < j) (p q : List Rat)
    (hp : (arraySplit xs k)[i]? = some p) (hq : (arraySplit xs k)[j]? = some q) : ∀ a ∈ p, ∀ b ∈ q, a < b := by
  have h := arraySplit_flatten xs k hk
  rw [← h, List.pairwise_flatten] at hs
  obtain ⟨h1, rfl⟩ := List.getElem?_eq_some_iff.1 hp
  obtain ⟨h2, rfl⟩ := List.getElem?_eq_some_iff.1 hq
  intro a ha b hb
  exact List.pairwise_iff_getElem.1 hs.2 i j h1 h2 hi a ha b hb

theorem in_chunk (lats : List Rat) (n i c : Nat) (x : Rat) (hc : lats[c]? = some x) :
    InBand ((arraySplit (uniqueSorted lats) n).map (selectOf lats)) i c ↔ ∃ p, (arraySplit (uniqueSorted lats) n)[i]? = some p ∧ x ∈ p := by
  simp only [InBand, List.getElem?_map, Option.map_eq_some_iff]
  constructor
  · rintro ⟨m, ⟨p, hp, rfl⟩, hm⟩
    refine ⟨p, hp, ?_⟩
    rw [selectOf, List.getElem?_map, hc] at hm
    simpa using hm
  · rintro ⟨p, hp, hx⟩
    refine ⟨_, ⟨p, hp, rfl⟩, ?_⟩
    rw [selectOf, List.getElem?_map, hc]
    simpa using hx

theorem some_piece (lats : List Rat) (n : Nat) (hn : 0 < n) (x : Rat) (hx : x ∈ lats) :
    ∃ (i : Nat) (p : List Rat), (arraySplit (uniqueSorted lats) n)[i]? = some p ∧ x ∈ p := by
  have : x ∈ (arraySplit (uniqueSorted lats) n).flatten := by
    rw [arraySplit_flatten _ _ hn]
    exact (mem_uniqueSorted x lats).2 hx
  obtain ⟨p, hp, hxp⟩ := List.mem_flatten.1 this
  obtain ⟨i, hi, rfl⟩ := List.getElem_of_mem hp
  exact ⟨i, _, List.getElem?_eq_getElem hi, hxp⟩

theorem eraseDups_nodup (n : Nat) : ∀ l : List Rat, l.length ≤ n → l.eraseDups.Nodup := by
  induction n with
  | zero => intro l hl; cases l with
    | nil => simp
    | cons a l => simp at hl
  | succ n ih =>
    intro l hl
    cases l with
    | nil => simp
    | cons a l =>
      rw [List.eraseDups_cons, List.nodup_cons]
      refine ⟨?_, ih _ (Nat.le_trans (List.length_filter_le _ _) (by simpa using hl))⟩
      rw [List.mem_eraseDups, List.mem_filter]
      simp

theorem count_unique (l : List Rat) : (uniqueSorted l).length = distinctCount l := by
  have h1 : (uniqueSorted l).Nodup := (uniqueSorted_sorted l).imp fun h e => by rw [e] at h; grind
  have h2 : l.eraseDups.Nodup := eraseDups_nodup _ _ (Nat.le_refl _)
  exact ((List.perm_ext_iff_of_nodup h1 h2).2 fun a => by rw [mem_uniqueSorted, List.mem_eraseDups]).length_eq

/-- With fewer elements than pieces the last piece is empty. -/
theorem last_empty {α} (xs : List α) (k : Nat) (h : xs.length < k) : (arraySplit xs k)[k - 1]? = some [] := by
  have e : (arraySplit xs k) = (List.range k).map fun i =>
    (xs.drop (splitPoint xs.length k i)).take (splitPoint xs.length k (i + 1) - splitPoint xs.length k i) := rfl
  have hs := splitPoint_step xs.length k (k - 1)
  rw [Nat.div_eq_of_lt h, Nat.mod_eq_of_lt h, if_neg (by omega)] at hs
  rw [e, List.getElem?_map, List.getElem?_range (by omega), Option.map_some, hs]
  simp

end Ocgis.Proofs.ScripChunk
