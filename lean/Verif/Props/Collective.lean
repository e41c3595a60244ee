import Verif.Proofs.Unique
import Verif.Proofs.Chunk
/-!
# C06-C08: global numbering, chunk slices, collective unique

`Comm.AlwaysReturns n prog result` (Model/Comm.lean): on every schedule of the `n` ranks, rank `i` running `prog i`,
every execution is finite, none gets stuck, and each ends with rank `i` having returned `result i` and no message left.
-/
namespace Ocgis.Props
open Ocgis.Spec Ocgis.Comm Ocgis.Mpi

theorem flatMap_prefix (sizes : Nat → Nat) (start : Int) (n : Nat) :
    (List.range n).flatMap (fun r => intRange (start + prefixSize sizes r) (start + prefixSize sizes r + sizes r))
      = intRange start (start + ((List.range n).map (fun r => (sizes r : Int))).sum) := by
  induction n with
  | zero => simp [intRange_empty]
  | succ n ih =>
    rw [List.range_succ, List.flatMap_append, ih, List.map_append, List.sum_append, sum_range_eq]
    simp only [List.flatMap_cons, List.flatMap_nil, List.append_nil, List.map_cons, List.map_nil, List.sum_cons, List.sum_nil]
    rw [intRange_append (by omega) (by omega)]
    congr 1
    omega

/-- C06, index ranges over a distributed dimension (`arange_from_dimension`): on every schedule the ranks' arrays,
concatenated in rank order, are `start, start+1, ...` with as many elements as all ranks hold, and each rank gets
as many as it holds (zero allowed). -/
theorem C06_arange_from_dimension (n : Nat) (hn : 0 < n) (sizes : Nat → Nat) (start : Int) :
    ∃ result, AlwaysReturns n (fun r => arange n r (sizes r) start) result ∧
      (∀ r, r < n → (result r).length = sizes r) ∧
      (List.range n).flatMap result = intRange start (start + ((List.range n).map (fun r => (sizes r : Int))).sum) := by
  refine ⟨_, arange_returns n hn sizes start, ?_, flatMap_prefix sizes start n⟩
  intro r _
  rw [length_intRange]; omega

/-- C06, unique identifiers (`create_ugid_global`), partial: as above, when no rank is empty.  Missing: ranks
without elements, which are refused (`C06_ugid_empty_counterexample`). -/
theorem C06_ugid_global_partial (n : Nat) (hn : 0 < n) (sizes : Nat → Nat) (hpos : ∀ r, r < n → 0 < sizes r) (start : Int) :
    ∃ result, AlwaysReturns n (fun r => ugidGlobal n r (sizes r) start) result ∧
      (∀ r, r < n → (result r).length = sizes r) ∧
      (List.range n).flatMap result = intRange start (start + ((List.range n).map (fun r => (sizes r : Int))).sum) := by
  refine ⟨_, ugid_returns n hn sizes hpos start, ?_, flatMap_prefix sizes start n⟩
  intro r _
  rw [length_intRange]; omega

/-- C06 is false of unique identifiers on a rank that holds no element: they are refused (callers must enter a scope of the non-empty ranks). -/
theorem C06_ugid_empty_counterexample (n r : Nat) (start : Int) : ugidGlobal n r 0 start = .raise .emptyObject := rfl

/-- C06, distributed dimensions from local sizes (`create_distributed_dimension`): on every schedule each rank gets a
dimension of its size, empty exactly when the size is zero, with the global bounds `(0, total)`; the local bounds,
in rank order, number `0, 1, ..., total - 1` consecutively. -/
theorem C06_create_distributed_dimension (name : String) (n : Nat) (hn : 0 < n) (sizes : Nat → Nat) :
    ∃ result : Nat → Dim, AlwaysReturns n (fun r => createDistributedDimension name n r (sizes r)) result ∧
      (∀ r, r < n → (result r).name = name ∧ (result r).len = sizes r ∧ ((result r).isEmpty = true ↔ sizes r = 0) ∧
        (result r).boundsGlobal = (0, ((List.range n).map (fun r => (sizes r : Int))).sum) ∧
        (result r).boundsLocal.2 - (result r).boundsLocal.1 = sizes r) ∧
      (List.range n).flatMap (fun r => intRange (result r).boundsLocal.1 (result r).boundsLocal.2)
        = intRange 0 ((List.range n).map (fun r => (sizes r : Int))).sum := by
  refine ⟨_, distDim_returns name n hn sizes, ?_, ?_⟩
  · intro r _
    refine ⟨rfl, rfl, by simp, ?_, ?_⟩
    · rw [sum_range_eq]; rfl
    · simp only [Dim.boundsLocal, Option.getD_some, prefixSize]; omega
  · have := flatMap_prefix sizes 0 n
    simp only [Int.zero_add] at this
    rw [← this]
    congr 1

/-- The hypotheses are met by three ranks of which one is empty. -/
example : ∃ result, AlwaysReturns 3 (fun r => arange 3 r ([2, 0, 3].getD r 0) 7) result ∧
    (List.range 3).flatMap result = [7, 8, 9, 10, 11] := by
  obtain ⟨res, h1, _, h3⟩ := C06_arange_from_dimension 3 (by decide) (fun r => [2, 0, 3].getD r 0) 7
  exact ⟨res, h1, by rw [h3]; decide⟩

/-- C07: with between one and the dimension's length splits per dimension, slicing succeeds and every position of the
array is selected by exactly one of the slice tuples. -/
theorem C07_nd_slices_tile (splits shape idx : List Nat) (hl : LegalSplits splits shape) (hi : InShape shape idx) :
    ∃ ss, createNdSlices splits shape = .ok ss ∧ ss.countP (fun s => selectsAll shape s idx) = 1 :=
  ndSlices_count splits shape idx hl hi

/-- C07, one dimension: the slices follow each other in order, so that concatenating the pieces they select
from an array gives the array back. -/
theorem C07_slices_concatenate {α : Type} (n k : Nat) (xs : List α) (hx : xs.length = n) (h0 : 1 ≤ k) (h : k ≤ n) :
    ∃ ss, createSlices n k = .ok ss ∧ ss.length = k ∧
      ∃ parts, ss.mapM (fun s => pickIndex s xs) = .ok parts ∧ (∀ p ∈ parts, p ≠ []) ∧ parts.flatten = xs := by
  refine ⟨_, createSlices_eq n k h0 h, by simp, ?_⟩
  refine ⟨(List.range k).map (fun i => (xs.drop (splitPoint n k i)).take (splitPoint n k (i + 1) - splitPoint n k i)), ?_, ?_, ?_⟩
  · rw [List.mapM_map]
    apply mapM_ok
    intro i hi
    have hi := List.mem_range.1 hi
    have h1 := splitPoint_mono n k i
    have h2 : splitPoint n k (i + 1) ≤ n := by
      have := splitPoint_le_of_le n k (show i + 1 ≤ k by omega)
      rw [splitPoint_size n k h0] at this
      exact this
    simp only [Function.comp_apply, pickIndex]
    rw [PySlice.get_inside xs _ _ (by omega) (by omega) (by omega)]
    congr 2
    omega
  · intro p hp
    simp only [List.mem_map] at hp
    obtain ⟨i, hi, rfl⟩ := hp
    have hi := List.mem_range.1 hi
    have hlt := splitPoint_lt n k i (by omega)
    have h2 : splitPoint n k (i + 1) ≤ n := by
      have := splitPoint_le_of_le n k (show i + 1 ≤ k by omega)
      rw [splitPoint_size n k h0] at this
      exact this
    intro e
    have := congrArg List.length e
    simp at this
    omega
  · rw [← List.flatMap_def, flatMap_slices xs (splitPoint n k) (splitPoint_mono n k) k, splitPoint_zero,
      splitPoint_size n k h0]
    simp [← hx]

/-- C07: asking for more splits than elements is an error (there would be an empty slice). -/
theorem C07_too_many_splits_rejected (n k : Nat) (h : n < k) : ∃ e, createSlices n k = .error e := by
  unfold createSlices
  rw [if_neg (by omega), arraySplit_intRange n k (by omega)]
  have hmem : (intRange (splitPoint n k n) (splitPoint n k (n + 1))) = [] := by
    apply intRange_empty
    have h1 := splitPoint_step n k n
    have : n / k = 0 := Nat.div_eq_of_lt h
    have h2 : n % k = n := Nat.mod_eq_of_lt h
    rw [this, h2] at h1
    simp at h1
    omega
  have key : ∀ l : List Nat, n ∈ l → ∃ e, (l.map fun i => intRange (splitPoint n k i) (splitPoint n k (i + 1))).mapM
      (fun s => optimalSlice s false) = .error e := by
    intro l
    induction l with
    | nil => intro h; simp at h
    | cons a l ih =>
      intro hl
      rw [List.map_cons, List.mapM_cons]
      by_cases ha : a = n
      · subst ha
        rw [hmem]
        exact ⟨.valueError, rfl⟩
      · obtain ⟨e, he⟩ := ih (by rcases List.mem_cons.1 hl with h | h; exact absurd h.symm ha; exact h)
        rw [he]
        cases optimalSlice (intRange (splitPoint n k a) (splitPoint n k (a + 1))) false with
        | error e' => exact ⟨e', rfl⟩
        | ok v => exact ⟨e, rfl⟩
  exact key _ (List.mem_range.2 h)

/-- C07: the splits chosen automatically for a shape without zero-length dimensions are legal, whatever
the rounding of the floating point root (as long as it is at least one). -/
theorem C07_optimal_splits_legal (evenSplit size : Nat) (shape : List Nat) (he : 1 ≤ evenSplit) (hs : 1 ≤ size)
    (hp : ∀ n ∈ shape, 1 ≤ n) : LegalSplits (optimalSplits evenSplit size shape) shape := by
  have hself : ∀ l : List Nat, (∀ n ∈ l, 1 ≤ n) → LegalSplits l l := by
    intro l
    induction l with
    | nil => intro _; trivial
    | cons a l ih => intro h; exact ⟨h a (by simp), Nat.le_refl _, ih (fun n hn => h n (by simp [hn]))⟩
  have hmap : ∀ (f : Nat → Nat) (l : List Nat), (∀ n ∈ l, 1 ≤ f n ∧ f n ≤ n) → LegalSplits (l.map f) l := by
    intro f l
    induction l with
    | nil => intro _; trivial
    | cons a l ih => intro h; exact ⟨(h a (by simp)).1, (h a (by simp)).2, ih (fun n hn => h n (by simp [hn]))⟩
  unfold optimalSplits
  simp only
  split
  · exact hself _ hp
  · cases shape with
    | nil => trivial
    | cons s0 rest =>
      simp only
      split
      · next h => exact ⟨hs, h, hmap _ _ (fun n hn => ⟨Nat.le_refl _, hp n (by simp [hn])⟩)⟩
      · apply hmap
        intro n hn
        have := hp n hn
        split <;> omega

example : LegalSplits [2, 3] [5, 3] ∧ InShape [5, 3] [4, 0] := by simp [LegalSplits, InShape]

example : createNdSlices [2, 1] [3, 2] = .ok
    [[.slice ⟨some 0, some 2⟩, .slice ⟨some 0, some 2⟩], [.slice ⟨some 2, some 3⟩, .slice ⟨some 0, some 2⟩]] := by decide

/-- C08, partial (no rank's array is empty; otherwise see `C08_empty_counterexample`): on every schedule of the
collective unique operation, each rank returns, sorted and without
repetition, exactly those of its values that no lower rank holds. -/
theorem C08_unique_global_partial (n : Nat) (hn : 0 < n) (arr : Nat → List Int) (hne : ∀ r, r < n → arr r ≠ []) :
    ∃ result : Nat → List Int, AlwaysReturns n (fun r => uniqueGlobal n r (arr r)) result ∧
      ∀ r, r < n → (result r).Pairwise (· < ·) ∧ ∀ x, x ∈ result r ↔ x ∈ arr r ∧ ∀ j, j < r → x ∉ arr j :=
  unique_returns n hn arr hne

/-- C08, partial as above: hence every value of every rank is returned by exactly one rank, once. -/
theorem C08_each_value_once_partial (n : Nat) (hn : 0 < n) (arr : Nat → List Int) (hne : ∀ r, r < n → arr r ≠ []) :
    ∃ result : Nat → List Int, AlwaysReturns n (fun r => uniqueGlobal n r (arr r)) result ∧
      ∀ x, ((List.range n).flatMap result).count x = if ∃ r, r < n ∧ x ∈ arr r then 1 else 0 := by
  obtain ⟨result, h, hr⟩ := unique_returns n hn arr hne
  refine ⟨result, h, ?_⟩
  intro x
  have key : ∀ k, k ≤ n → ((List.range k).flatMap result).count x = if ∃ r, r < k ∧ x ∈ arr r then 1 else 0 := by
    intro k
    induction k with
    | zero => intro _; simp
    | succ k ih =>
      intro hk
      rw [List.range_succ, List.flatMap_append, List.count_append, ih (by omega)]
      simp only [List.flatMap_cons, List.flatMap_nil, List.append_nil]
      obtain ⟨hs, hm⟩ := hr k (by omega)
      have hnd : (result k).Nodup := hs.imp (fun h => by omega)
      by_cases h1 : ∃ r, r < k ∧ x ∈ arr r
      · rw [if_pos h1, if_pos (by obtain ⟨r, a, b⟩ := h1; exact ⟨r, by omega, b⟩)]
        have : x ∉ result k := by
          intro hx
          obtain ⟨r, a, b⟩ := h1
          exact ((hm x).1 hx).2 r a b
        rw [List.count_eq_zero.2 this]
      · rw [if_neg h1]
        have h1' : ∀ j, j < k → x ∉ arr j := fun j hj hx => h1 ⟨j, hj, hx⟩
        by_cases h2 : x ∈ arr k
        · rw [if_pos ⟨k, by omega, h2⟩]
          have hx : x ∈ result k := (hm x).2 ⟨h2, h1'⟩
          have a := List.count_pos_iff.2 hx
          have b := List.nodup_iff_count.1 hnd x
          omega
        · rw [if_neg]
          · have : x ∉ result k := fun hx => h2 ((hm x).1 hx).1
            rw [List.count_eq_zero.2 this]
          · rintro ⟨r, a, b⟩
            by_cases hrk : r = k
            · subst hrk; exact h2 b
            · exact h1' r (by omega) b
  exact key n (Nat.le_refl n)

example : ∀ r, r < 3 → ([[3, 1, 3], [2, 3], [9, 1]] : List (List Int)).getD r [] ≠ [] := by decide

/-- C08 is false of a rank without values: the operation fails there (and the other ranks wait for it). -/
theorem C08_empty_counterexample (n r : Nat) : uniqueGlobal n r [] = .coll [] fun _ => .raise .valueError := rfl

end Ocgis.Props
