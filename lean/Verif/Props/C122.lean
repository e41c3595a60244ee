import Verif.Proofs.DistRegistry
/-!
# C122: What a distribution knows of dimensions and variables
-/
namespace Ocgis.Props
open Spec Ocgis.DistRegistry Proofs.DistRegistry

private def clockDim : Dim := ⟨"time", "time", 10, false⟩
private def renamedDim : Dim := ⟨"x", "longitude", 4, false⟩

/-- A dimension that is added to a group is there on every rank and is found by its name; what else was in the group stays. Missing: it must have
the same name in its source (`C122_renamed_never`). -/
theorem C122_dimension_partial (d : Dim) (hd : d.source = d.name) (p : List String) (force : Bool) (s : State) (hn : s.ranks.Nodup)
    (hl : force = true ∨ ∀ r ∈ s.ranks, LacksDim s r p d.name) :
    ∃ t, addDim d p force s = (t, none) ∧ t.ranks = s.ranks ∧ (∀ r ∈ s.ranks, (getDim d.name p r t).2 = .ok d) ∧
      ∀ r ∈ s.ranks, ∀ key e, key ≠ d.name → (HasDim s r p key e ↔ HasDim t r p key e) := by
  obtain ⟨t, ht, h1, h2, -⟩ := addDimTo_ok d p force s.ranks s hn hl
  refine ⟨t, ht, h1, ?_, ?_⟩
  · intro r hr
    rw [getDim_at _ _ _ _ (h1 ▸ hr), groupAt_after s t p _ r (h2 r hr)]
    simp only [get_setKey, hd, if_true]
  · intro r hr key e hk
    unfold HasDim
    rw [h2 r hr p, after, if_pos rfl]
    unfold groupAt
    cases hg : s.groups r p with
    | none =>
      constructor
      · rintro ⟨g, h, -⟩; cases h
      · rintro ⟨g, h, he⟩
        cases h
        simp only [Option.getD_none, get_setKey, hd, if_neg (Ne.symm hk)] at he
        cases he
    | some g =>
      constructor
      · rintro ⟨g', h, he⟩
        cases h
        exact ⟨_, rfl, by simp only [Option.getD_some, get_setKey, hd, if_neg (Ne.symm hk)]; exact he⟩
      · rintro ⟨g', h, he⟩
        cases h
        exact ⟨g, rfl, by simpa only [Option.getD_some, get_setKey, hd, if_neg (Ne.symm hk)] using he⟩

example : (getDim "time" ["deep"] 1 (addDim clockDim ["deep"] false (create [0, 1])).1).2 = .ok clockDim ∧
    (addDim clockDim ["deep"] false (create [0, 1])).2 = none := by decide +kernel

/-- A dimension with another name in its source is not found by its name on any rank, and by the name in the source instead. -/
theorem C122_renamed_never (d : Dim) (hd : d.source ≠ d.name) (p : List String) (force : Bool) (s : State) (hn : s.ranks.Nodup)
    (hl : ∀ r ∈ s.ranks, LacksDim s r p d.name) :
    ∃ t, addDim d p force s = (t, none) ∧
      ∀ r ∈ s.ranks, (getDim d.name p r t).2 = .error .dimensionNotFound ∧ (getDim d.source p r t).2 = .ok d := by
  obtain ⟨t, ht, h1, h2, -⟩ := addDimTo_ok d p force s.ranks s hn (Or.inr hl)
  refine ⟨t, ht, ?_⟩
  intro r hr
  have hnone : get? d.name (groupAt s r p).dims = none := by
    unfold groupAt
    cases hg : s.groups r p with
    | none => rfl
    | some g => exact hl r hr g hg
  constructor
  · rw [getDim_at _ _ _ _ (h1 ▸ hr), groupAt_after s t p _ r (h2 r hr)]
    simp only [get_setKey, if_neg hd, hnone]
  · rw [getDim_at _ _ _ _ (h1 ▸ hr), groupAt_after s t p _ r (h2 r hr)]
    simp only [get_setKey, if_true]

/-- So making one fails after it was added. -/
theorem C122_create_never (d : Dim) (hd : d.source ≠ d.name) (p : List String) (s : State) (hn : s.ranks.Nodup)
    (hl : ∀ r ∈ s.ranks, LacksDim s r p d.name) (r : Nat) (hr : r ∈ s.ranks) :
    (createDim d p r s).2 = .error .dimensionNotFound ∧ HasDim (createDim d p r s).1 r p d.source d := by
  obtain ⟨t, ht, h⟩ := C122_renamed_never d hd p false s hn hl
  obtain ⟨t', ht', h1, h2, -⟩ := addDimTo_ok d p false s.ranks s hn (Or.inr hl)
  have htt : t = t' := by
    have := ht.symm.trans ht'
    exact (Prod.mk.inj this).1
  subst htt
  have hc : createDim d p r s = getDim d.name p r t := by
    unfold createDim
    rw [ht]
  rw [hc]
  refine ⟨(h r hr).1, ?_⟩
  have hs : (getDim d.name p r t).1 = ensure t r p := by
    unfold getDim
    rw [if_pos (h1 ▸ hr)]
  rw [hs]
  refine ⟨groupAt t r p, ensure_at t r p, ?_⟩
  rw [groupAt_after s t p _ r (h2 r hr)]
  simp only [get_setKey, if_true]

example : (createDim renamedDim [] 0 (create [0])).2 = .error .dimensionNotFound := by decide +kernel

/-- And a dimension with the same name in its source replaces another one without being forced. -/
theorem C122_replaced_never (d e : Dim) (p : List String) (s : State) (hn : s.ranks.Nodup) (hl : ∀ r ∈ s.ranks, LacksDim s r p d.name)
    (r : Nat) (hr : r ∈ s.ranks) (he : HasDim s r p d.source e) :
    ∃ t, addDim d p false s = (t, none) ∧ HasDim t r p d.source d := by
  have _ := he
  obtain ⟨t, ht, -, h2, -⟩ := addDimTo_ok d p false s.ranks s hn (Or.inr hl)
  refine ⟨t, ht, ?_⟩
  unfold HasDim
  rw [h2 r hr p, after, if_pos rfl]
  exact ⟨_, rfl, by simp only [get_setKey, if_true]⟩

example : ((addDim ⟨"y", "longitude", 9, false⟩ [] false (addDim renamedDim [] false (create [0])).1).1.groups 0 []) =
    some ⟨[("longitude", ⟨"y", "longitude", 9, false⟩)], []⟩ := by decide +kernel

/-- A dimension that is found by name is refused if it is added again, and nothing changes. -/
theorem C122_again (d e : Dim) (p : List String) (s : State) (r : Nat) (rs : List Nat) (hr : s.ranks = r :: rs) (h : HasDim s r p d.name e)
    (hp : ∀ p', p' <+: p → (s.groups r p').isSome) : (addDim d p false s).2 = some .valueError ∧ (addDim d p false s).1.groups = s.groups := by
  obtain ⟨g, hg, he⟩ := h
  have hat : groupAt (ensure s r p) r p = g := by rw [groupAt_ensure, groupAt, hg]; rfl
  unfold addDim
  rw [hr, addDimTo]
  simp only [hat, he]
  rw [if_pos (by simp)]
  exact ⟨rfl, ensure_id s r p hp⟩

/-- A variable that is added is there on every rank and is found by its name. -/
theorem C122_variable (name : String) (dims p : List String) (force : Bool) (s : State) (hn : s.ranks.Nodup)
    (hl : force = true ∨ ∀ r ∈ s.ranks, LacksVar s r p name) :
    ∃ t, addVar name dims p force s = (t, none) ∧ ∀ r ∈ s.ranks, (getVar name p r t).2 = .ok dims := by
  obtain ⟨t, ht, h1, h2, -⟩ := addVarTo_ok name dims p force s.ranks s hn hl
  refine ⟨t, ht, ?_⟩
  intro r hr
  rw [getVar_at _ _ _ _ (h1 ▸ hr), groupAt_after s t p _ r (h2 r hr)]
  simp only [get_setKey, if_true]

/-- A variable with another name in its source is not found when it is asked for itself. -/
theorem C122_variable_never (name source : String) (hs : source ≠ name) (dims p : List String) (s : State) (hn : s.ranks.Nodup)
    (hl : ∀ r ∈ s.ranks, LacksVar s r p name) (hl' : ∀ r ∈ s.ranks, LacksVar s r p source) :
    ∃ t, addVar name dims p false s = (t, none) ∧ ∀ r ∈ s.ranks, (getVar source p r t).2 = .error .keyError := by
  obtain ⟨t, ht, h1, h2, -⟩ := addVarTo_ok name dims p false s.ranks s hn (Or.inr hl)
  refine ⟨t, ht, ?_⟩
  intro r hr
  have hnone : get? source (groupAt s r p).vars = none := by
    unfold groupAt
    cases hg : s.groups r p with
    | none => rfl
    | some g => exact hl' r hr g hg
  rw [getVar_at _ _ _ _ (h1 ▸ hr), groupAt_after s t p _ r (h2 r hr)]
  simp only [get_setKey, if_neg (Ne.symm hs), hnone]

/-- A variable that is there is refused if it is added again, and nothing changes. -/
theorem C122_variable_again (name : String) (dims e p : List String) (s : State) (r : Nat) (rs : List Nat) (hr : s.ranks = r :: rs)
    (h : HasVar s r p name e) (hp : ∀ p', p' <+: p → (s.groups r p').isSome) :
    (addVar name dims p false s).2 = some .valueError ∧ (addVar name dims p false s).1.groups = s.groups := by
  obtain ⟨g, hg, he⟩ := h
  have hat : groupAt (ensure s r p) r p = g := by rw [groupAt_ensure, groupAt, hg]; rfl
  unfold addVar
  rw [hr, addVarTo]
  simp only [hat, he]
  rw [if_pos (by simp)]
  exact ⟨rfl, ensure_id s r p hp⟩

/-- All ranks know the same after dimensions and variables were added. -/
theorem C122_same (s : State) (hn : s.ranks.Nodup) (h : SameOnRanks s) :
    SameOnRanks (create s.ranks) ∧
    (∀ d p force, (force = true ∨ ∀ r ∈ s.ranks, LacksDim s r p d.name) → SameOnRanks (addDim d p force s).1) ∧
    ∀ name dims p force, (force = true ∨ ∀ r ∈ s.ranks, LacksVar s r p name) → SameOnRanks (addVar name dims p force s).1 := by
  refine ⟨?_, ?_, ?_⟩
  · intro r hr r' hr' p
    unfold create at hr hr' ⊢
    simp only at hr hr' ⊢
    simp only [hr, hr', true_and]
  · intro d p force hl
    obtain ⟨t, ht, h1, h2, -⟩ := addDimTo_ok d p force s.ranks s hn hl
    have : (addDim d p force s).1 = t := by rw [addDim, ht]
    rw [this]
    intro r hr r' hr' p'
    rw [h1] at hr hr'
    rw [h2 r hr, h2 r' hr']
    exact after_same s p _ h r r' hr hr' p'
  · intro name dims p force hl
    obtain ⟨t, ht, h1, h2, -⟩ := addVarTo_ok name dims p force s.ranks s hn hl
    have : (addVar name dims p force s).1 = t := by rw [addVar, ht]
    rw [this]
    intro r hr r' hr' p'
    rw [h1] at hr hr'
    rw [h2 r hr, h2 r' hr']
    exact after_same s p _ h r r' hr hr' p'

/-- Looking for something in a group that is not there makes the group, on the rank that looked only. -/
theorem C122_lookup_never (name : String) (p : List String) (r r' : Nat) (s : State) (hr : r ∈ s.ranks) (h : s.groups r p = none)
    (h' : s.groups r' p = none) (hne : r' ≠ r) :
    (getDim name p r s).2 = .error .dimensionNotFound ∧ (getDim name p r s).1.groups r p = some ⟨[], []⟩ ∧
      (getDim name p r s).1.groups r' p = none := by
  have hs : (getDim name p r s).1 = ensure s r p := by
    unfold getDim
    rw [if_pos hr]
  have hg : groupAt s r p = ⟨[], []⟩ := by rw [groupAt, h]; rfl
  refine ⟨?_, ?_, ?_⟩
  · rw [getDim_at _ _ _ _ hr, hg]
    rfl
  · rw [hs, ensure_at, hg]
  · rw [hs, ensure_other _ _ _ _ _ hne, h']

example : ((getDim "time" ["a", "b"] 0 (create [0, 1])).1.groups 0 ["a"]) = some ⟨[], []⟩ := by decide +kernel

/-- Ranks that do not begin with zero can be asked for dimensions, but which of them are empty is not told. -/
theorem C122_ranks_never (ranks : List Nat) (size : Nat) (hs : 0 < size) (h : 0 ∉ ranks) (p : List String) (s : State) (hr : s.ranks = ranks) :
    emptyRanks size p s = .error .keyError := by
  unfold emptyRanks
  rw [if_neg]
  rw [hr, List.all_eq_true]
  intro hall
  have := hall 0 (List.mem_range.2 hs)
  simp only [decide_eq_true_eq] at this
  exact h this

/-- Ranks from zero on: those with an empty dimension in the group. -/
theorem C122_empty (size : Nat) (p : List String) (s : State) (hr : s.ranks = List.range size) :
    ∃ l, emptyRanks size p s = .ok l ∧ ∀ r, r ∈ l ↔ r < size ∧ ∃ g, s.groups r p = some g ∧ ∃ e ∈ g.dims, e.2.empty = true := by
  unfold emptyRanks
  rw [if_pos (by rw [hr, List.all_eq_true]; intro r h; simpa using h)]
  refine ⟨_, rfl, ?_⟩
  intro r
  rw [List.mem_filter, List.mem_range, groupAt_ensure, List.any_eq_true]
  unfold groupAt
  cases hg : s.groups r p with
  | none => simp
  | some g => simp

example : emptyRanks 2 [] (addDim ⟨"x", "x", 0, true⟩ [] false (create [0, 1])).1 = .ok [0, 1] ∧ emptyRanks 2 [] (create [3, 4]) = .error .keyError := by
  decide +kernel

end Ocgis.Props
