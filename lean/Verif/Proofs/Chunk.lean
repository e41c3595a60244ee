import Verif.Model.Chunk
import Verif.Spec.Chunk
import Verif.Proofs.Mpi
import Verif.Proofs.Indexing
namespace Ocgis.Mpi

theorem arraySplit_intRange (n k : Nat) (h0 : 0 < k) :
    arraySplit (intRange 0 n) k
      = (List.range k).map fun i => intRange (splitPoint n k i) (splitPoint n k (i + 1)) := by
  unfold arraySplit
  simp only [length_intRange]
  apply List.map_congr_left
  intro i hi
  have hi := List.mem_range.1 hi
  have e : ((n : Int) - 0).toNat = n := by omega
  rw [e]
  change (List.drop (splitPoint n k i) (intRange 0 n)).take (splitPoint n k (i + 1) - splitPoint n k i) = _
  have h1 := splitPoint_mono n k i
  have h2 : splitPoint n k (i + 1) ≤ n := by
    have := splitPoint_le_of_le n k (show i + 1 ≤ k by omega)
    rw [splitPoint_size n k h0] at this
    exact this
  rw [intRange_take_drop 0 n (splitPoint n k i) (splitPoint n k (i + 1) - splitPoint n k i) (by omega)]
  congr 1 <;> omega

theorem createSlices_eq (n k : Nat) (h0 : 0 < k) (h : k ≤ n) :
    createSlices n k = .ok ((List.range k).map fun i =>
      .slice ⟨some (splitPoint n k i : Int), some (splitPoint n k (i + 1) : Int)⟩) := by
  unfold createSlices
  rw [if_neg (by omega), arraySplit_intRange n k h0, List.mapM_map]
  apply mapM_ok
  intro i hi
  have hi := List.mem_range.1 hi
  have hlt := splitPoint_lt n k i (by omega)
  have e := optimalSlice_run (splitPoint n k i) (splitPoint n k (i + 1)) (by omega)
  simp only [Function.comp_apply]
  unfold optimalSlice at e ⊢
  rw [anyGap_intRange] at e
  exact e

open Spec

theorem selects_slice (n a b i : Nat) (h1 : a ≤ b) (h2 : b ≤ n) :
    selects n (.slice ⟨some (a : Int), some (b : Int)⟩) i = decide (a ≤ i ∧ i < b) := by
  unfold selects
  simp only [pickIndex]
  rw [PySlice.get_inside (List.range n) a b (by omega) (by omega) (by simp; omega)]
  simp only [List.contains_eq_mem, decide_eq_decide]
  have e : (List.drop ((a : Int).toNat) (List.range n)).take ((b : Int) - a).toNat = rangeFrom a b := by
    unfold rangeFrom
    apply List.ext_getElem?
    intro j
    rw [List.getElem?_take, List.getElem?_drop]
    by_cases hj : j < b - a
    · rw [if_pos (by omega), List.getElem?_range (by omega), List.getElem?_range' hj]
      congr 1; omega
    · rw [if_neg (by omega), List.getElem?_eq_none (by simp; omega)]
  rw [e, mem_rangeFrom]

theorem count_consecutive (f : Nat → Nat) (hm : ∀ i, f i ≤ f (i + 1)) (k i : Nat) :
    (List.range k).countP (fun j => decide (f j ≤ i ∧ i < f (j + 1))) = if f 0 ≤ i ∧ i < f k then 1 else 0 := by
  have hmono : ∀ k, f 0 ≤ f k := by
    intro k
    induction k with
    | zero => exact Nat.le_refl _
    | succ k ih => exact Nat.le_trans ih (hm k)
  induction k with
  | zero => simp
  | succ k ih =>
    rw [List.range_succ, List.countP_append, ih]
    have h1 := hm k
    have h2 := hmono k
    simp only [List.countP_cons, List.countP_nil, decide_eq_true_eq]
    repeat' split
    all_goals omega

theorem createSlices_count (n k i : Nat) (h0 : 0 < k) (h : k ≤ n) (hi : i < n) :
    ∃ ss, createSlices n k = .ok ss ∧ ss.countP (fun s => selects n s i) = 1 := by
  refine ⟨_, createSlices_eq n k h0 h, ?_⟩
  rw [List.countP_map]
  have e : (List.range k).countP ((fun s => selects n s i) ∘ fun j =>
      Index.slice ⟨some (splitPoint n k j : Int), some (splitPoint n k (j + 1) : Int)⟩)
      = (List.range k).countP (fun j => decide (splitPoint n k j ≤ i ∧ i < splitPoint n k (j + 1))) := by
    apply List.countP_congr
    intro j hj
    have hj := List.mem_range.1 hj
    have h2 := splitPoint_le_of_le n k (show j + 1 ≤ k by omega)
    rw [splitPoint_size n k h0] at h2
    simp only [Function.comp_apply]
    rw [selects_slice n _ _ i (splitPoint_mono n k j) h2]
  rw [e, count_consecutive _ (splitPoint_mono n k), splitPoint_zero, splitPoint_size n k h0, if_pos (by omega)]

theorem ndSlices_count (splits shape idx : List Nat) (hl : LegalSplits splits shape) (hi : InShape shape idx) :
    ∃ ss, createNdSlices splits shape = .ok ss ∧ ss.countP (fun s => selectsAll shape s idx) = 1 := by
  unfold createNdSlices
  suffices H : ∃ ls, ndSliceLists splits shape = .ok ls ∧
      (product ls).countP (fun s => selectsAll shape s idx) = 1 by
    obtain ⟨ls, e, h⟩ := H
    exact ⟨product ls, by rw [e]; rfl, h⟩
  induction splits generalizing shape idx with
  | nil =>
    cases shape with
    | nil =>
      cases idx with
      | nil => exact ⟨[], rfl, by decide⟩
      | cons i idx => exact hi.elim
    | cons n shape => exact hl.elim
  | cons k splits ih =>
    cases shape with
    | nil => exact hl.elim
    | cons n shape =>
      cases idx with
      | nil => exact hi.elim
      | cons i idx =>
        obtain ⟨h1, h2, h3⟩ := hl
        obtain ⟨i1, i2⟩ := hi
        obtain ⟨ss, e1, c1⟩ := createSlices_count n k i (by omega) h2 i1
        obtain ⟨ls, e2, c2⟩ := ih shape idx h3 i2
        refine ⟨ss :: ls, by simp only [ndSliceLists, e1, e2, bind, Except.bind], ?_⟩
        have key : ∀ l : List Index, (l.flatMap fun x => (product ls).map fun t => x :: t).countP
            (fun s => selectsAll (n :: shape) s (i :: idx)) = l.countP (fun s => selects n s i) := by
          intro l
          induction l with
          | nil => rfl
          | cons x l ihl =>
            rw [List.flatMap_cons, List.countP_append, ihl, List.countP_map, List.countP_cons]
            have e : (product ls).countP ((fun s => selectsAll (n :: shape) s (i :: idx)) ∘ fun t => x :: t)
                = if selects n x i = true then 1 else 0 := by
              by_cases hx : selects n x i = true
              · rw [if_pos hx, ← c2]
                apply List.countP_congr
                intro t _
                simp [selectsAll, hx]
              · rw [if_neg hx]
                apply List.countP_eq_zero.2
                intro t _
                simp [selectsAll, hx]
            rw [e]; omega
        rw [product, key, c1]

end Ocgis.Mpi
