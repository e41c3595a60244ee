import Verif.Spec.Indexing
import Verif.Proofs.Range
namespace Ocgis
open Spec

theorem length_intRange (a b : Int) : (intRange a b).length = (b - a).toNat := by simp [intRange]

theorem getElem?_intRange (a b : Int) (i : Nat) :
    (intRange a b)[i]? = if (i : Int) < b - a then some (a + i) else none := by
  unfold intRange
  rw [List.getElem?_map]
  by_cases h : (i : Int) < b - a
  · rw [List.getElem?_range (by omega), if_pos h]; rfl
  · rw [if_neg h, List.getElem?_eq_none (by simp; omega)]; rfl

theorem mem_intRange {a b x : Int} : x ∈ intRange a b ↔ a ≤ x ∧ x < b := by
  unfold intRange
  rw [List.mem_map]
  constructor
  · rintro ⟨k, hk, rfl⟩
    rw [List.mem_range] at hk; omega
  · intro h
    exact ⟨(x - a).toNat, by rw [List.mem_range]; omega, by omega⟩

theorem intRange_take_drop (a b : Int) (i k : Nat) (h : (i : Int) + k ≤ b - a) :
    ((intRange a b).drop i).take k = intRange (a + i) (a + i + k) := by
  apply List.ext_getElem?
  intro j
  rw [List.getElem?_take, List.getElem?_drop, getElem?_intRange, getElem?_intRange]
  grind

theorem intRange_append {a b c : Int} (h1 : a ≤ b) (h2 : b ≤ c) :
    intRange a b ++ intRange b c = intRange a c := by
  apply List.ext_getElem?
  intro j
  rw [List.getElem?_append, length_intRange, getElem?_intRange, getElem?_intRange, getElem?_intRange]
  split <;> split <;> (try split) <;> first | rfl | (congr 1; omega) | omega

theorem intRange_empty {a b : Int} (h : b ≤ a) : intRange a b = [] := by
  have : (b - a).toNat = 0 := by omega
  simp [intRange, this]

theorem intRange_cons {a b : Int} (h : a < b) : intRange a b = a :: intRange (a + 1) b := by
  apply List.ext_getElem?
  intro j
  cases j with
  | zero => rw [getElem?_intRange]; simp; omega
  | succ j =>
    rw [List.getElem?_cons_succ, getElem?_intRange, getElem?_intRange]
    split <;> split <;> first | rfl | (congr 1; omega) | omega

theorem intRange_map_add (a b c : Int) : (intRange a b).map (· + c) = intRange (a + c) (b + c) := by
  apply List.ext_getElem?
  intro j
  rw [List.getElem?_map, getElem?_intRange, getElem?_intRange]
  split <;> split <;> first | rfl | omega | skip
  simp; omega

/-- A Python slice with bounds inside the list. -/
theorem PySlice.get_inside {α : Type _} (xs : List α) (a b : Int) (h0 : 0 ≤ a) (h1 : a ≤ b)
    (h2 : b ≤ xs.length) :
    (PySlice.mk (some a) (some b)).get xs = (xs.drop a.toNat).take (b - a).toNat := by
  unfold PySlice.get PySlice.lo PySlice.hi PySlice.clip
  simp only
  rw [if_neg (by omega), if_neg (by omega), Nat.min_eq_left (by omega), Nat.min_eq_left (by omega)]
  congr 1
  omega

theorem PySlice.get_all {α : Type _} (xs : List α) : PySlice.all.get xs = xs := by
  simp [PySlice.get, PySlice.all, PySlice.lo, PySlice.hi, PySlice.clip]

theorem sources_length (d : Dim) (h : Aligned d) (hs : d.srcIdx ≠ none) :
    ((sources d).length : Int) = max d.len 0 := by
  unfold sources Aligned at *
  match hsrc : d.srcIdx with
  | none => exact absurd hsrc hs
  | some (.bounds a b) => rw [hsrc] at h; simp only at h ⊢; rw [length_intRange]; omega
  | some (.fancy xs) => rw [hsrc] at h; simp only at h ⊢; omega

/-- The state left by `set_size`. -/
def Dim.resized (d : Dim) (n : Int) (src : Option SrcIdx) : Dim :=
  { d with
    boundsLocal? := none
    sizeCurrent := some n
    size := match d.size with
      | none => none
      | some _ => some n
    srcIdx := src }

theorem Dim.len_resized (d : Dim) (n : Int) (src : Option SrcIdx) : (d.resized n src).len = n := by
  unfold Dim.resized Dim.len
  cases d.size <;> simp

theorem Dim.setSize_ok (d : Dim) (n : Int) (src : Option SrcIdx)
    (h : Aligned (d.resized n src)) : d.setSize n src = .ok (d.resized n src) := by
  have hl := Dim.len_resized d n src
  unfold Dim.setSize Dim.setSrcIdx
  unfold Aligned at h
  match src with
  | none => rfl
  | some (.fancy xs) =>
    have hl' := Dim.len_resized d n d.srcIdx
    exact if_neg (fun hh => hh (h.trans (hl.trans hl'.symm)))
  | some (.bounds a b) =>
    have hl' := Dim.len_resized d n d.srcIdx
    exact if_neg (fun hh => hh (h.trans (hl.trans hl'.symm)))

theorem Dim.getitem_of_format (d : Dim) (raw : RawIndex) (idx : Index) (src : Option SrcIdx)
    (hpos : 0 < d.len) (hf : formatSlice raw = .ok idx) (hs : sliceSourceIndex idx d.srcIdx = .ok src) :
    d.getitem raw = d.setSize (sliceLength d.len idx) src := by
  unfold Dim.getitem
  rw [if_neg (by omega), if_neg (by omega), hf]
  simp only [bind, Except.bind, hs]

/-- Slicing the source index by a range inside the dimension. -/
theorem Dim.sliceSourceIndex_inside (d : Dim) (a b : Int) (hal : Aligned d) (h0 : 0 ≤ a)
    (h1 : a ≤ b) (h2 : b ≤ d.len) :
    ∃ src, sliceSourceIndex (.slice ⟨some a, some b⟩) d.srcIdx = .ok src
      ∧ Aligned (d.resized (b - a) src)
      ∧ (d.srcIdx = none → src = none)
      ∧ (d.srcIdx ≠ none → src ≠ none)
      ∧ sources (d.resized (b - a) src) = ((sources d).drop a.toNat).take (b - a).toNat := by
  have hne : Index.slice ⟨some a, some b⟩ ≠ Index.slice PySlice.all := by
    intro h; injection h with h; injection h with h; cases h
  unfold Dim.sliceSourceIndex
  rw [if_neg hne]
  match hsrc : d.srcIdx with
  | none =>
    refine ⟨none, rfl, trivial, fun _ => rfl, fun h => absurd rfl h, ?_⟩
    unfold sources; simp [Dim.resized, hsrc]
  | some (.fancy xs) =>
    have hxl : (xs.length : Int) = d.len := by unfold Aligned at hal; rw [hsrc] at hal; exact hal
    have hg := PySlice.get_inside xs a b h0 h1 (by omega)
    refine ⟨some (.fancy ((xs.drop a.toNat).take (b - a).toNat)), by simp only [hg], ?_, by simp, by simp, ?_⟩
    · unfold Aligned
      rw [Dim.len_resized]
      simp only [Dim.resized, List.length_take, List.length_drop]
      omega
    · unfold sources; simp only [Dim.resized, hsrc]
  | some (.bounds s e) =>
    have hxl : e - s = d.len := by unfold Aligned at hal; rw [hsrc] at hal; exact hal
    refine ⟨some (.bounds (a + s) (b + s)), ?_, ?_, by simp, by simp, ?_⟩
    · simp only
      have e1 : (if a < 0 then e - s + a else if a > s - s then a else s - s) = a := by
        rw [if_neg (by omega)]; split <;> omega
      have e2 : (if b < 0 then e - s + b else if b < e - s then b else e - s) = b := by
        rw [if_neg (by omega)]; split <;> omega
      rw [e1, e2]
    · unfold Aligned
      rw [Dim.len_resized]
      simp only [Dim.resized]
      omega
    · unfold sources
      simp only [Dim.resized, hsrc]
      rw [intRange_take_drop _ _ _ _ (by omega)]
      congr 1 <;> omega

theorem sliceLength_inside (n a b : Int) (h0 : 0 ≤ a) (h1 : a ≤ b) (h2 : b ≤ n) :
    Dim.sliceLength n (.slice ⟨some a, some b⟩) = b - a := by
  unfold Dim.sliceLength
  simp only
  split <;> split <;> omega

/-- Slicing by a range inside the dimension. -/
theorem Dim.getitem_slice (d : Dim) (a b : Int) (hal : Aligned d) (hpos : 0 < d.len) (h0 : 0 ≤ a)
    (h1 : a ≤ b) (h2 : b ≤ d.len) :
    ∃ src, d.getitem (.slice ⟨some a, some b⟩) = .ok (d.resized (b - a) src)
      ∧ Aligned (d.resized (b - a) src)
      ∧ (d.srcIdx = none → src = none)
      ∧ (d.srcIdx ≠ none → src ≠ none)
      ∧ sources (d.resized (b - a) src) = ((sources d).drop a.toNat).take (b - a).toNat := by
  obtain ⟨src, e1, e2, e3, e4, e5⟩ := Dim.sliceSourceIndex_inside d a b hal h0 h1 h2
  refine ⟨src, ?_, e2, e3, e4, e5⟩
  rw [Dim.getitem_of_format d _ _ src hpos rfl e1, sliceLength_inside _ _ _ h0 h1 h2]
  exact Dim.setSize_ok d _ _ e2

end Ocgis
