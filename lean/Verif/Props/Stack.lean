import Verif.Proofs.Stack
/-!
# C35: stacking
-/
namespace Ocgis.Props
open Ocgis.Stack Ocgis.Spec
open Ocgis.Array (Arr)

/-- A concatenation has no other elements than those of the parts. -/
theorem C35_concatenation_complete {α : Type} (axis : Nat) (parts : List (Arr α)) (whole : Arr α) (h : Concatenates axis parts whole)
    (idx : List Nat) (hi : IdxIn whole.shape idx) :
    ∃ (k : Nat) (p : Arr α) (i : List Nat), parts[k]? = some p ∧ IdxIn p.shape i ∧
      idx = i.set axis (partOffset axis parts k + i.getD axis 0) := by
  obtain ⟨hsize, hoth, -⟩ := h
  have haxis : axis < whole.shape.length := (List.getElem?_eq_some_iff.1 hsize).1
  have key : ∀ (ps : List (Arr α)) (c : Nat), c < (ps.map fun p : Arr α => p.shape.getD axis 0).sum →
      ∃ (k : Nat) (p : Arr α) (j : Nat), ps[k]? = some p ∧ j < p.shape.getD axis 0 ∧ c = partOffset axis ps k + j := by
    intro ps
    induction ps with
    | nil => intro c hc; simp at hc
    | cons p ps ih =>
      intro c hc
      simp only [List.map_cons, List.sum_cons] at hc
      by_cases hlt : c < p.shape.getD axis 0
      · exact ⟨0, p, c, rfl, hlt, by simp [partOffset]⟩
      · obtain ⟨k, q, j, h1, h2, h3⟩ := ih (c - p.shape.getD axis 0) (by omega)
        refine ⟨k + 1, q, j, by simpa using h1, h2, ?_⟩
        simp only [partOffset, List.take_succ_cons, List.map_cons, List.sum_cons] at h3 ⊢
        omega
  have hlt := hi.2 axis haxis
  rw [List.getD_eq_getElem?_getD, List.getD_eq_getElem?_getD, hsize] at hlt
  simp only [Option.getD_some] at hlt
  obtain ⟨k, p, j, h1, h2, h3⟩ := key parts _ hlt
  have hp := hoth p (List.mem_of_getElem? h1)
  refine ⟨k, p, idx.set axis j, h1, ⟨by simp [hi.1, hp.1], ?_⟩, ?_⟩
  · intro m hm
    by_cases hma : m = axis
    · subst hma
      simp only [List.getD_eq_getElem?_getD, List.getElem?_set_self (by rw [hi.1]; exact haxis)] at h2 ⊢
      simpa using h2
    · have := hi.2 m (by omega)
      simp only [List.getD_eq_getElem?_getD] at this ⊢
      rw [List.getElem?_set_ne (fun h => hma h.symm), hp.2 m hma]
      exact this
  · apply List.ext_getElem?
    intro m
    by_cases hma : m = axis
    · subst hma
      have hml : m < idx.length := by rw [hi.1]; exact haxis
      rw [List.getElem?_set_self (by simpa using hml)]
      simp only [List.getD_eq_getElem?_getD, List.getElem?_set_self hml, Option.getD_some] at h3 ⊢
      rw [List.getElem?_eq_getElem hml] at h3 ⊢
      simp only [Option.getD_some] at h3
      rw [h3]
    · rw [List.getElem?_set_ne (fun h => hma h.symm), List.getElem?_set_ne (fun h => hma h.symm)]

/-- C35 (variables with the same dimensions in the same order, of the same sizes but for the stacked one): stacking succeeds, and
the values and the mask of the result are the concatenations of the values and masks in the order of the inputs; it has no mask
only if none of them has one. -/
theorem C35_stack_partial {α : Type} (fill : α) (arch : SVar α) (rest : List (SVar α)) (dim : String) (axis : Nat)
    (hd : arch.names[axis]? = some dim) (hnd : arch.names.Nodup) (hl : arch.names.length = arch.shape.length)
    (hsame : ∀ v ∈ arch :: rest, v.names = arch.names ∧ v.shape.length = arch.shape.length ∧
      ∀ k : Nat, k ≠ axis → v.shape[k]? = arch.shape[k]?) :
    ∃ r, stack fill (arch :: rest) dim = .ok r ∧ r.names = arch.names ∧
      Concatenates axis ((arch :: rest).map valuesOf) (valuesOf r) ∧
      Concatenates axis ((arch :: rest).map maskOf) (maskOf r) ∧
      (r.mask = none ↔ ∀ v ∈ arch :: rest, v.mask = none) := by
  obtain ⟨hlt, he⟩ := List.getElem?_eq_some_iff.1 hd
  have hax : axis < arch.shape.length := by omega
  have hidx : arch.names.idxOf dim = axis := by rw [← he]; exact hnd.idxOf_getElem _ hlt
  have hsz := newSize_alike dim axis arch.names arch.shape hnd hd (arch :: rest) hsame
  obtain ⟨r, r1, r2, r3, r4, -, r6⟩ := fillLoop_spec dim axis arch.names arch.shape hnd hd hax (arch :: rest) 0
    { names := arch.names, shape := arch.shape.set axis (((arch :: rest).map fun v : SVar α => v.shape.getD axis 0).sum), value := fun _ => fill }
    hsame (fun idx _ => rfl)
  have hmm : ∀ (k : Nat), partOffset axis ((arch :: rest).map maskOf) k = partOffset axis ((arch :: rest).map valuesOf) k := by
    intro k
    simp only [partOffset, ← List.map_take, List.map_map]
    rfl
  have hothers : ∀ v ∈ arch :: rest, v.shape.length = r.shape.length ∧ ∀ k : Nat, k ≠ axis → v.shape[k]? = r.shape[k]? := by
    intro v hv
    obtain ⟨-, h1, h2⟩ := hsame v hv
    rw [r3]
    refine ⟨by simpa using h1, ?_⟩
    intro k hk
    rw [List.getElem?_set_ne (fun e => hk e.symm)]
    exact h2 k hk
  refine ⟨r, ?_, r2, ⟨?_, ?_, ?_⟩, ⟨?_, ?_, ?_⟩, ?_⟩
  · simp only [stack]
    rw [hsz]
    simp only [hidx]
    exact r1
  · simp only [valuesOf, r3, List.getElem?_set_self hax, List.map_map]; rfl
  · intro p hp
    obtain ⟨v, hv, rfl⟩ := List.mem_map.1 hp
    exact hothers v hv
  · intro k p idx hk hi
    rw [List.getElem?_map] at hk
    cases hv : (arch :: rest)[k]? with
    | none => rw [hv] at hk; cases hk
    | some v =>
      rw [hv] at hk
      simp only [Option.map_some, Option.some.injEq] at hk
      subst hk
      have := (r6 k v idx hv hi).1
      rw [Nat.zero_add] at this
      exact this
  · simp only [maskOf, r3, List.getElem?_set_self hax, List.map_map]; rfl
  · intro p hp
    obtain ⟨v, hv, rfl⟩ := List.mem_map.1 hp
    exact hothers v hv
  · intro k p idx hk hi
    rw [List.getElem?_map] at hk
    cases hv : (arch :: rest)[k]? with
    | none => rw [hv] at hk; cases hk
    | some v =>
      rw [hv] at hk
      simp only [Option.map_some, Option.some.injEq] at hk
      subst hk
      have := (r6 k v idx hv hi).2
      rw [Nat.zero_add] at this
      rw [hmm]
      exact this
  · rw [r4]; simp

/-- Two variables over (time, x), stacked along time; the second has a mask. -/
def demoStack1 : SVar Nat := { names := ["time", "x"], shape := [1, 2], value := fun i => 10 + i.getD 1 0 }
def demoStack2 : SVar Nat := { names := ["time", "x"], shape := [2, 2], value := fun i => 20 + 2 * i.getD 0 0 + i.getD 1 0, mask := some fun i => i == [1, 0] }

example : ∀ v ∈ [demoStack1, demoStack2], v.names = demoStack1.names ∧ v.shape.length = demoStack1.shape.length ∧
    ∀ k : Nat, k ≠ 0 → v.shape[k]? = demoStack1.shape[k]? := by
  intro v hv
  rcases List.mem_cons.1 hv with rfl | hv
  · exact ⟨rfl, rfl, fun _ _ => rfl⟩
  · rcases List.mem_cons.1 hv with rfl | hv
    · refine ⟨rfl, rfl, ?_⟩
      intro k hk
      match k with
      | 0 => exact absurd rfl hk
      | k + 1 => rfl
    · cases hv

example : ∃ r, stack 0 [demoStack1, demoStack2] "time" = .ok r ∧ r.shape = [3, 2] ∧
    ([[0, 0], [0, 1], [1, 0], [1, 1], [2, 0], [2, 1]].map fun i => (r.value i, (maskOf r).elem i)) =
      [(10, false), (11, false), (20, false), (21, false), (22, true), (23, false)] := ⟨_, rfl, by decide, by decide⟩

/-- C35: a variable without the dimension is refused. -/
theorem C35_missing_dimension {α : Type} (fill : α) (arch v : SVar α) (rest : List (SVar α)) (dim : String)
    (hv : v ∈ arch :: rest) (hno : dim ∉ v.names) : stack fill (arch :: rest) dim = .error .keyError := by
  have hbad : v.lenOf dim = .error .keyError := by
    unfold SVar.lenOf
    rw [List.idxOf?_eq_none_iff.2 hno]
  have key : ∀ vs : List (SVar α), v ∈ vs → newSize dim vs = .error .keyError := by
    intro vs
    induction vs with
    | nil => intro h; cases h
    | cons w ws ih =>
      intro h
      rw [newSize]
      have hw : w.lenOf dim = .error .keyError ∨ ∃ n, w.lenOf dim = .ok n := by
        unfold SVar.lenOf
        split
        · exact .inl rfl
        · exact .inr ⟨_, rfl⟩
      rcases hw with hw | ⟨n, hw⟩
      · rw [hw]
      · rw [hw]
        rcases List.mem_cons.1 h with h | h
        · subst h; rw [hbad] at hw; cases hw
        · rw [ih h]
  simp only [stack]
  rw [key _ hv]

/-- C35 is false for variables whose dimensions are in different orders: the values go in by position, so the element of the second
variable at y = 0, x = 1 is found at y = 1, x = 2 + 0 instead of y = 0, x = 2 + 1. -/
theorem C35_dimension_order_counterexample : ∃ (a b r : SVar Nat), a.names = ["y", "x"] ∧ b.names = ["x", "y"] ∧
    a.shape = [2, 2] ∧ b.shape = [2, 2] ∧ stack 0 [a, b] "x" = .ok r ∧ r.names = ["y", "x"] ∧
    r.value [0, 3] ≠ b.value [1, 0] ∧ r.value [1, 2] = b.value [1, 0] :=
  ⟨{ names := ["y", "x"], shape := [2, 2], value := fun _ => 0 }, { names := ["x", "y"], shape := [2, 2], value := fun i => 10 * i.getD 0 0 + i.getD 1 0 },
    _, rfl, rfl, rfl, rfl, rfl, rfl, by decide, by decide⟩

/-- C35 is false for variables whose other sizes differ, if one is a single element: instead of an error, the element is repeated. -/
theorem C35_broadcast_counterexample : ∃ (a b r : SVar Nat), a.names = ["t", "x"] ∧ b.names = ["t", "x"] ∧ a.shape = [1, 3] ∧
    b.shape = [1, 1] ∧ stack 0 [a, b] "t" = .ok r ∧ r.shape = [2, 3] ∧ r.value [1, 2] = b.value [0, 0] :=
  ⟨{ names := ["t", "x"], shape := [1, 3], value := fun _ => 0 }, { names := ["t", "x"], shape := [1, 1], value := fun _ => 7 },
    _, rfl, rfl, rfl, rfl, rfl, rfl, by decide⟩

end Ocgis.Props
