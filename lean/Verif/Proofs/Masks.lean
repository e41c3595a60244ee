import Verif.Spec.Masks
/-!
# Lemmas
-/
namespace Ocgis.Props
open Ocgis.Masks Ocgis.Spec
open Ocgis.Array (Arr)

theorem setMask_shape {v v' : MVar} {m : Option (Arr Bool)} {u : Bool} (h : setMask v m u = .ok v') :
    v'.names = v.names ∧ v'.shape = v.shape ∧ v'.name = v.name := by
  unfold setMask at h
  split at h
  · injection h with h; subst h; exact ⟨rfl, rfl, rfl⟩
  · cases h

/-- What the operations have asked for so far. -/
def asked : List MaskOp → List (Option (Arr Bool))
  | [] => []
  | .update m :: os => m :: asked os
  | _ :: os => asked os

theorem asked_updates (ms : List (Option (Arr Bool))) : asked (ms.map .update) = ms := by
  induction ms with
  | nil => rfl
  | cons m ms ih => simp [asked, ih]

theorem mem_allIdx (shape : List Nat) : ∀ idx : List Nat, idx ∈ allIdx shape ↔ IdxIn shape idx := by
  induction shape with
  | nil => intro idx; simp [allIdx, IdxIn]
  | cons n ns ih =>
    intro idx
    simp only [allIdx, List.mem_flatMap, List.mem_range, List.mem_map]
    constructor
    · rintro ⟨i, hi, r, hr, rfl⟩
      obtain ⟨h1, h2⟩ := (ih r).1 hr
      refine ⟨by simp [h1], ?_⟩
      intro k hk
      cases k with
      | zero => simpa using hi
      | succ k => simpa using h2 k (by simpa using hk)
    · rintro ⟨h1, h2⟩
      cases idx with
      | nil => simp at h1
      | cons i r =>
        refine ⟨i, by simpa using h2 0 (by simp), r, (ih r).2 ⟨by simpa using h1, ?_⟩, rfl⟩
        intro k hk
        simpa using h2 (k + 1) (by simpa using hk)

theorem cascadeLoop_ok (map : List (Nat × Nat)) (shape : List Nat) (src : List Nat → Bool) (ss : List (List Nat)) :
    ∀ t : List Nat → Bool, (∀ s ∈ ss, templateInside map s shape = true) →
      ∃ t', cascadeLoop map shape src t ss = .ok t' ∧
        ∀ idx, t' idx = true ↔ t idx = true ∨ ∃ s ∈ ss, src s = true ∧ onTemplate map s idx = true := by
  induction ss with
  | nil => intro t _; exact ⟨t, rfl, by simp⟩
  | cons s ss ih =>
    intro t hin
    have hs := hin s (by simp)
    have hss : ∀ s ∈ ss, templateInside map s shape = true := fun x hx => hin x (List.mem_cons_of_mem _ hx)
    rw [cascadeLoop]
    unfold cascadeStep
    cases hsrc : src s with
    | true =>
      simp only [hs, if_true]
      obtain ⟨t', h1, h2⟩ := ih (fun idx => t idx || onTemplate map s idx) hss
      refine ⟨t', h1, ?_⟩
      intro idx
      rw [h2]
      simp only [Bool.or_eq_true, List.mem_cons, exists_eq_or_imp, hsrc, true_and, or_assoc]
    | false =>
      simp only [Bool.false_eq_true, if_false]
      obtain ⟨t', h1, h2⟩ := ih t hss
      refine ⟨t', h1, ?_⟩
      intro idx
      rw [h2]
      simp [hsrc]

theorem mem_sliceMap (src dst : List String) (hs : src.Nodup) (hd : dst.Nodup) (m : Nat × Nat) :
    m ∈ sliceMap src dst ↔ ∃ n, src[m.1]? = some n ∧ dst[m.2]? = some n := by
  simp only [sliceMap, List.mem_map, List.mem_filter, List.contains_eq_mem, decide_eq_true_eq]
  constructor
  · rintro ⟨n, ⟨h1, h2⟩, rfl⟩
    refine ⟨n, ?_, ?_⟩
    · have := List.idxOf_lt_length_of_mem h1
      rw [List.getElem?_eq_getElem this, List.getElem_idxOf this]
    · have := List.idxOf_lt_length_of_mem h2
      rw [List.getElem?_eq_getElem this, List.getElem_idxOf this]
  · rintro ⟨n, h1, h2⟩
    refine ⟨n, ⟨List.mem_of_getElem? h1, List.mem_of_getElem? h2⟩, ?_⟩
    obtain ⟨l1, e1⟩ := List.getElem?_eq_some_iff.1 h1
    obtain ⟨l2, e2⟩ := List.getElem?_eq_some_iff.1 h2
    apply Prod.ext
    · simp only; rw [← e1]; exact hs.idxOf_getElem _ l1
    · simp only; rw [← e2]; exact hd.idxOf_getElem _ l2

theorem onTemplate_iff (src dst : List String) (hs : src.Nodup) (hd : dst.Nodup) (s t : List Nat) :
    onTemplate (sliceMap src dst) s t = true ↔ SameCoordinates src dst s t := by
  simp only [onTemplate, List.all_eq_true, beq_iff_eq, SameCoordinates]
  constructor
  · intro h i j n h1 h2
    exact (h (i, j) ((mem_sliceMap src dst hs hd _).2 ⟨n, h1, h2⟩)).symm
  · intro h m hm
    obtain ⟨n, h1, h2⟩ := (mem_sliceMap src dst hs hd _).1 hm
    exact (h m.1 m.2 n h1 h2).symm

end Ocgis.Props
