import Verif.Spec.Redistribute
import Verif.Proofs.ScatterGather
import Verif.Proofs.SourceRead
import Verif.Proofs.MapM
/-!
# Lemmas on redistribution
-/
namespace Ocgis.Redistribute
open Ocgis Ocgis.Mpi Ocgis.Spec

theorem chooseDistributed_single (d : Dim) (hd : d.dist = true) (h0 : 0 ≤ d.len) : chooseDistributed [d] = some d := by
  unfold chooseDistributed
  have : List.filter (fun x : Dim => x.dist) [d] = [d] := by simp [hd]
  simp only [this, List.foldl_cons, List.foldl_nil]
  rw [if_pos (by omega)]

theorem updateGroup_single (size minE rank : Nat) (d r : Dim) (hd : d.dist = true) (h0 : 0 ≤ d.len)
    (h : updateDistributed size minE rank d = .ok r) : updateGroup size minE rank [d] = .ok [r] := by
  unfold updateGroup
  rw [chooseDistributed_single d hd h0]
  simp only [List.mapM_cons, List.mapM_nil, if_true, h]
  rfl

/-- The fresh dimension that is distributed. -/
def fresh (dn : String) (n : Nat) : Dim := ⟨dn, some n, some n, true, false, none, none, none⟩

theorem newDims_ok (size : Nat) (dn : String) (n : Nat) :
    ∃ f : Nat → Dim, newDims size dn n = .ok ((List.range size).map f) ∧
      ∀ r, Piece (fresh dn n) n (effectiveSize size 2 n) r (f r) := by
  have hex : ∀ rank, ∃ r, updateDistributed size 2 rank (fresh dn n) = .ok r ∧ Piece (fresh dn n) n (effectiveSize size 2 n) rank r :=
    fun rank => updateDistributed_ok size 2 rank (fresh dn n) n rfl rfl rfl trivial
  refine ⟨fun r => Classical.choose (hex r), ?_, fun r => (Classical.choose_spec (hex r)).2⟩
  have key : (List.range size).mapM (fun rank =>
      match (List.replicate size [[fresh dn n]])[rank]? with
      | none => (.error .keyError : Res (List (List Dim)))
      | some groups => groups.mapM (updateGroup size 2 rank))
      = .ok ((List.range size).map fun r => [[Classical.choose (hex r)]]) := by
    apply mapM_ok
    intro r hr
    rw [List.mem_range] at hr
    rw [List.getElem?_replicate, if_pos hr]
    simp only [List.mapM_cons, List.mapM_nil]
    rw [updateGroup_single size 2 r (fresh dn n) _ rfl (by simp [fresh, Dim.len]) (Classical.choose_spec (hex r)).1]
    rfl
  unfold newDims OcgDist.updateDimensionBounds
  simp only [Bool.false_eq_true, if_false]
  rw [if_neg (by decide)]
  unfold fresh at key
  simp only [bind, Except.bind] at key ⊢
  erw [key]
  simp only [List.filterMap_map]
  congr 1
  rw [← List.filterMap_eq_map]
  rfl

theorem effective_two (size n : Nat) (hs : 2 ≤ size) (hn : 2 ≤ n) :
    effectiveSize size 2 n = min size (n / 2) ∧ 0 < min size (n / 2) ∧ min size (n / 2) ≤ n := by
  unfold effectiveSize
  simp only
  split <;> split <;> omega

/-- The part of a rank. -/
def share {β : Type} (xs : List β) (n m r : Nat) : List β :=
  if r < m then (xs.drop (splitPoint n m r)).take (splitPoint n m (r + 1) - splitPoint n m r) else []

theorem share_length {β : Type} (xs : List β) (m r : Nat) (hm : m ≤ xs.length) (hr : r < m) :
    (share xs xs.length m r).length = splitPoint xs.length m (r + 1) - splitPoint xs.length m r := by
  unfold share
  rw [if_pos hr, List.length_take, List.length_drop]
  have h1 := splitPoint_le xs.length m r (by omega)
  omega

theorem shares_flatten {β : Type} (xs : List β) (size m : Nat) (hm : 0 < m) (hms : m ≤ size) (hmn : m ≤ xs.length) :
    ((List.range size).map (share xs xs.length m)).flatten = xs := by
  have hsplit : List.range size = List.range m ++ List.range' m (size - m) := by
    rw [List.range_eq_range', List.range_eq_range']
    have := List.range'_append (s := 0) (step := 1) (m := m) (n := size - m)
    rw [show m + (size - m) = size by omega] at this
    simpa using this.symm
  rw [hsplit, List.map_append, List.flatten_append]
  have e2 : ((List.range' m (size - m)).map (share xs xs.length m)).flatten = [] := by
    rw [List.flatten_eq_nil_iff]
    intro l hl
    obtain ⟨r, hr, rfl⟩ := List.mem_map.1 hl
    rw [List.mem_range'_1] at hr
    unfold share; rw [if_neg (by omega)]
  have e1 : ((List.range m).map (share xs xs.length m)) = (List.range m).map (fun i =>
      (xs.drop (splitPoint xs.length m i)).take (splitPoint xs.length m (i + 1) - splitPoint xs.length m i)) := by
    apply List.map_congr_left
    intro r hr
    rw [List.mem_range] at hr
    unfold share; rw [if_pos hr]
  rw [e2, e1, List.append_nil]
  have := flatMap_slices xs _ (splitPoint_mono xs.length m) m
  unfold List.flatMap at this
  rw [this, splitPoint_zero, splitPoint_size _ _ hm, List.drop_zero, List.take_of_length_le (by omega)]

theorem shares_even {β : Type} (xs : List β) (size : Nat) (hs : 2 ≤ size) (hn : 2 ≤ xs.length) :
    EvenParts size xs ((List.range size).map (share xs xs.length (min size (xs.length / 2)))) := by
  obtain ⟨-, hm, hmn⟩ := effective_two size xs.length hs hn
  generalize hmm : min size (xs.length / 2) = m at *
  have hget : ∀ (r : Nat) p, ((List.range size).map (share xs xs.length m))[r]? = some p → p = share xs xs.length m r := by
    intro r p h
    rw [List.getElem?_map] at h
    cases hr : (List.range size)[r]? with
    | none => rw [hr] at h; cases h
    | some k =>
      rw [hr] at h
      rw [List.getElem?_eq_some_iff] at hr
      obtain ⟨_, hr⟩ := hr
      rw [List.getElem_range] at hr
      subst hr
      simpa using h.symm
  have hdiv : 2 ≤ xs.length / m := (Nat.le_div_iff_mul_le hm).2 (by omega)
  refine ⟨by simp, shares_flatten xs size m hm (by omega) hmn, ?_, ?_, ?_⟩
  · intro r p h hr
    rw [hmm] at hr
    rw [hget r p h, share_length xs m r hmn hr]
    have := splitPoint_step xs.length m r
    omega
  · intro r p h hr
    rw [hmm] at hr
    rw [hget r p h]; unfold share; rw [if_neg (by omega)]
  · intro r r' p p' h h' hp hp'
    have g : ∀ r p, ((List.range size).map (share xs xs.length m))[r]? = some p → p ≠ [] → r < m := by
      intro r p h hp
      by_cases hr : r < m
      · exact hr
      · rw [hget r p h] at hp; unfold share at hp; rw [if_neg hr] at hp; exact absurd rfl hp
    rw [hget r p h, hget r' p' h', share_length xs m r hmn (g r p h hp), share_length xs m r' hmn (g r' p' h' hp')]
    have s1 := splitPoint_step xs.length m r
    have s2 := splitPoint_step xs.length m r'
    have : (if r < xs.length % m then 1 else 0) ≤ 1 := by split <;> omega
    omega

theorem globalIndex_ok (passed : List (Option Dim)) (hsrc : ∀ d, some d ∈ passed → d.srcIdx ≠ none)
    (hne : allSources passed ≠ []) : globalIndex passed = .ok (allSources passed) := by
  have h1 : (passed.filterMap id).mapM fancyIndex = .ok ((passed.filterMap id).map sources) := by
    apply mapM_ok
    intro d hd
    rw [List.mem_filterMap] at hd
    obtain ⟨o, ho, hd⟩ := hd
    simp only [id] at hd
    subst hd
    have := hsrc d ho
    unfold fancyIndex sources
    cases hs : d.srcIdx with
    | none => exact absurd hs this
    | some s => cases s <;> rfl
  unfold globalIndex
  rw [h1]
  cases he : (passed.filterMap id).map sources with
  | nil =>
    exfalso; apply hne
    unfold allSources List.flatMap; rw [he]; rfl
  | cons e es =>
    simp only
    rw [hgather_eq]
    unfold allSources List.flatMap
    rw [he]

theorem scatter_shares (dn : String) (idx : List Int) (size : Nat) (hs : 2 ≤ size) (hn : 2 ≤ idx.length) (f : Nat → Dim)
    (hf : ∀ r, Piece (fresh dn idx.length) idx.length (min size (idx.length / 2)) r (f r)) (root : Dim) (hroot : root.dist = false) :
    scatter ⟨root, idx⟩ ((List.range size).map f) = .ok ((List.range size).map fun r =>
      if r < min size (idx.length / 2) then some ⟨f r, share idx idx.length (min size (idx.length / 2)) r⟩ else none) := by
  obtain ⟨-, hm, hmn⟩ := effective_two size idx.length hs hn
  unfold scatter
  rw [if_neg (by simp [hroot]), if_pos (by simp; omega)]
  congr 1
  rw [List.map_map]
  apply List.map_congr_left
  intro r _
  simp only [Function.comp, scatterTo]
  by_cases hr : r < min size (idx.length / 2)
  · obtain ⟨h1, h2, -⟩ := (hf r).live (by omega)
    rw [h1, h2, if_neg (by simp), if_pos hr]
    unfold share
    rw [if_pos hr]
    have hlt := splitPoint_le idx.length _ r (show r < min idx.length (min size (idx.length / 2)) by omega)
    have hmo := splitPoint_mono idx.length (min size (idx.length / 2)) r
    rw [PySlice.get_inside _ _ _ (by omega) (by omega) (by omega)]
    congr 2
    congr 1
    all_goals omega
  · obtain ⟨h1, -⟩ := (hf r).empty (by omega)
    rw [h1, if_pos rfl, if_neg hr]

theorem finishAll_ok {α : Type} (dn target : String) : ∀ (ds : List Dim) (ss : List (Option (Var Int))) (hs : List (Held α)),
    ds.length = hs.length → ss.length = hs.length →
    (∀ (r : Nat) d s h, ds[r]? = some d → ss[r]? = some s → hs[r]? = some h → ∃ h', finish dn target d s h = .ok h') →
    ∃ hs', finishAll dn target ds ss hs = .ok hs' ∧ hs'.length = hs.length ∧
      ∀ (r : Nat) d s h h', ds[r]? = some d → ss[r]? = some s → hs[r]? = some h → hs'[r]? = some h' →
        finish dn target d s h = .ok h' := by
  intro ds
  induction ds with
  | nil =>
    intro ss hs h1 h2 _
    have : hs = [] := List.eq_nil_of_length_eq_zero (by simpa using h1.symm)
    subst this
    exact ⟨[], by simp [finishAll], rfl, by intro r d s h h' hd; simp at hd⟩
  | cons d ds ih =>
    intro ss hs h1 h2 hall
    cases hs with
    | nil => simp at h1
    | cons h hs =>
      cases ss with
      | nil => simp at h2
      | cons s ss =>
        obtain ⟨h', hf⟩ := hall 0 d s h rfl rfl rfl
        obtain ⟨hs', e1, e2, e3⟩ := ih ss hs (by simpa using h1) (by simpa using h2)
          (fun r d s h a b c => hall (r + 1) d s h a b c)
        refine ⟨h' :: hs', by simp only [finishAll, hf, e1], by simp [e2], ?_⟩
        intro r d₁ s₁ h₁ h₁' a b c e
        cases r with
        | zero =>
          simp only [List.getElem?_cons_zero, Option.some.injEq] at a b c e
          subst a; subst b; subst c; subst e; exact hf
        | succ r => exact e3 r d₁ s₁ h₁ h₁' a b c e

theorem fileElements_length {α : Type} (file : List α) (p : List Int) (h : ∀ x ∈ p, 0 ≤ x ∧ x < (file.length : Int)) :
    (fileElements file p).length = p.length := by
  induction p with
  | nil => rfl
  | cons x xs ih =>
    have := h x (by simp)
    have ih := ih (fun y hy => h y (by simp [hy]))
    unfold fileElements at ih ⊢
    rw [List.filterMap_cons, List.getElem?_eq_getElem (by omega)]
    simp only [List.length_cons]
    rw [ih]

theorem find_setDim (dims : List Dim) (d : Dim) : (setDim dims d).find? (·.name = d.name) = some d := by
  unfold setDim
  split
  · next h =>
    induction dims with
    | nil => simp at h
    | cons x xs ih =>
      rw [List.map_cons, List.find?_cons]
      by_cases hx : x.name = d.name
      · simp [hx]
      · have h' : (xs.any fun y => decide (y.name = d.name)) = true := by simpa [hx] using h
        simp only [hx, if_false, decide_false]
        exact ih h'
  · next h =>
    have hnone : dims.find? (fun x => decide (x.name = d.name)) = none := by
      rw [List.find?_eq_none]
      intro x hx
      simp only [List.any_eq_true, not_exists, not_and] at h
      exact h x hx
    rw [List.find?_append, hnone]
    simp

theorem find_setDim_other (dims : List Dim) (d : Dim) (m : String) (hm : m ≠ d.name) :
    (setDim dims d).find? (·.name = m) = dims.find? (·.name = m) := by
  unfold setDim
  split
  · next h =>
    clear h
    induction dims with
    | nil => rfl
    | cons x xs ih =>
      rw [List.map_cons, List.find?_cons, List.find?_cons]
      by_cases hx : x.name = d.name
      · have h1 : ¬ d.name = m := fun h => hm h.symm
        have h2 : ¬ x.name = m := by rw [hx]; exact h1
        simp only [hx, if_true, h1, decide_false]
        exact ih
      · simp only [hx, if_false]
        rw [ih]
  · rw [List.find?_append]
    cases hf : dims.find? (fun x => decide (x.name = m)) with
    | some x => rfl
    | none =>
      simp only [Option.none_or, List.find?_cons, List.find?_nil]
      simp [Ne.symm hm]

end Ocgis.Redistribute
