import Verif.Spec.Regrid
import Verif.Props.Coords
import Mathlib.Tactic.Linarith
import Mathlib.Tactic.Ring
import Mathlib.Algebra.Order.Field.Rat
/-!
# Lemmas
-/
namespace Ocgis.Props
open Ocgis Ocgis.Regrid Ocgis.Coords Ocgis.Spec

theorem regrid_weighted (ws : List ((Nat × Nat) × Rat)) (d : Nat → Nat → Rat) :
    weighted ws (fun i j => d j i) = weightedSum ws d := by
  induction ws with
  | nil => rfl
  | cons w ws ih => simp only [weighted, weightedSum, List.map_cons, List.sum_cons] at *; rw [ih]

theorem regridVars_spec {E : Regrid.Ext} {m : RMethod} {f : Regrid.Field} {es ed : EGrid} {sp : Bool}
    {fv : Option Rat} {vs : List Regrid.Var} {outs : List Out} (h : regridVars E m f es ed sp fv vs = .ok outs) :
    outs.length = vs.length ∧ ∀ (n : Nat) (v : Regrid.Var) (o : Out), vs[n]? = some v → outs[n]? = some o →
      regridVar E m f es ed sp fv v = .ok o := by
  induction vs generalizing outs with
  | nil => cases h; exact ⟨rfl, by simp⟩
  | cons v vs ih =>
    unfold regridVars at h
    split at h
    · cases h
    · rename_i o ho
      split at h
      · cases h
      · rename_i os hos
        cases h
        obtain ⟨h1, h2⟩ := ih hos
        refine ⟨by simp [h1], ?_⟩
        intro n v' o' hv ho'
        cases n with
        | zero => simp only [List.getElem?_cons_zero, Option.some.injEq] at hv ho'; subst hv ho'; exact ho
        | succ n => simp only [List.getElem?_cons_succ] at hv ho'; exact h2 n v' o' hv ho'

theorem regridVars_all {E : Regrid.Ext} {m : RMethod} {f : Regrid.Field} {es ed : EGrid} {sp : Bool}
    {fv : Option Rat} {vs : List Regrid.Var} (h : ∀ v ∈ vs, ∃ o, regridVar E m f es ed sp fv v = .ok o) :
    ∃ outs, regridVars E m f es ed sp fv vs = .ok outs := by
  induction vs with
  | nil => exact ⟨[], rfl⟩
  | cons v vs ih =>
    obtain ⟨o, ho⟩ := h v List.mem_cons_self
    obtain ⟨os, hos⟩ := ih fun w hw => h w (List.mem_cons_of_mem _ hw)
    exact ⟨o :: os, by simp only [regridVars, ho, hos]⟩

theorem regridField_inv {E : Regrid.Ext} {src : Regrid.Field} {dst : Regrid.Grid} {ds : Bool} {o : Options}
    {outs : List Out} (h : regridField E src dst ds o = .ok outs) :
    ∃ es ed, checkFields src dst ds o.method = none ∧
      createEsmfGrid src.grid o.method (sourceMask src o.valueMask) = .ok es ∧
      createEsmfGrid dst o.method o.valueMask = .ok ed ∧ src.vars ≠ [] ∧
      (src.shape.2, src.shape.1) = (src.grid.nx, src.grid.ny) ∧
      regridVars E (resolve o.method es ed) src es ed (o.split && src.extra) o.fillValue src.vars = .ok outs := by
  unfold regridField at h
  split at h
  · cases h
  · rename_i hc
    split at h
    · cases h
    · rename_i es hes
      split at h
      · cases h
      · rename_i hv
        split at h
        · cases h
        · rename_i hs
          split at h
          · cases h
          · rename_i ed hed
            exact ⟨es, ed, hc, hes, hed, hv, not_not.1 hs, h⟩

theorem createEsmfGrid_inv {g : Regrid.Grid} {m : Method} {vm : Option MaskArr} {e : EGrid}
    (h : createEsmfGrid g m vm = .ok e) : ∃ u c, esmfUsable g vm = .ok u ∧ esmfCorners g m = .ok c ∧ g.spherical = true ∧
      (g.shape.2, g.shape.1) = (g.nx, g.ny) ∧
      e = ⟨g.nx, g.ny, g.periodic, fun i j => stored g.rowsFirst g.x j i, fun i j => stored g.rowsFirst g.y j i, u, c⟩ := by
  unfold createEsmfGrid at h
  split at h
  · cases h
  · rename_i hs
    by_cases hsh : (g.shape.2, g.shape.1) = (g.nx, g.ny)
    · simp only [esmfCentres, if_pos hsh] at h
      split at h
      · cases h
      · rename_i u hu
        split at h
        · cases h
        · rename_i c hc
          cases h
          exact ⟨u, c, hu, hc, by simpa using hs, hsh, rfl⟩
    · simp only [esmfCentres, if_neg hsh] at h
      cases h

theorem esmfUsable_none {g : Regrid.Grid} {u : Nat → Nat → Bool} (h : esmfUsable g none = .ok u)
    (j i : Nat) : u i j = !hides g.hidden j i := by
  unfold esmfUsable at h
  cases hh : g.hidden with
  | none => simp only [esmfMask, hh] at h; cases h; rfl
  | some m =>
    simp only [esmfMask, hh] at h
    cases h
    simp [hides]

theorem esmfUsable_some {g : Regrid.Grid} {v : MaskArr} {u : Nat → Nat → Bool}
    (h : esmfUsable g (some v) = .ok u) (j i : Nat) : u i j = !(v.get j i || hides g.hidden j i) := by
  unfold esmfUsable at h
  simp only [esmfMask] at h
  split at h
  · cases h
  · rename_i h2; split at h2 <;> cases h2
  · rename_i m hm
    split at hm
    · cases hm; cases h
      cases g.hidden <;> rfl
    · cases hm

theorem anyHidden_false {v : Regrid.Var} {f : Regrid.Field} (h : v.anyHidden f = false) (k j i : Nat) (hk : k < f.slices)
    (hj : j < f.grid.ny) (hi : i < f.grid.nx) : hidesValue v k j i = false := by
  unfold Regrid.Var.anyHidden at h
  unfold hidesValue
  cases hv : v.hidden with
  | none => rfl
  | some m =>
    rw [hv] at h
    simp only [List.any_eq_false, List.mem_range, Bool.not_eq_true] at h
    exact h k hk j hj i hi

theorem sourceGrid {src : Regrid.Field} (hf : src.yx = true) (hg : src.grid.rowsFirst = true) {m : Method} {es : EGrid}
    (h0 : 0 < src.slices) (h : createEsmfGrid src.grid m (sourceMask src none) = .ok es) :
    EsmfOf src.grid (fun j i => firstMask src j i || hides src.grid.hidden j i) es := by
  obtain ⟨u, c, hu, _, _, _, rfl⟩ := createEsmfGrid_inv h
  refine ⟨rfl, rfl, fun _ _ _ _ => by simp [stored, hg], fun _ _ _ _ => by simp [stored, hg], ?_⟩
  intro j i hj hi
  show u i j = _
  unfold sourceMask at hu
  unfold firstMask
  cases hv : src.vars with
  | nil => simp only [hv] at hu; simpa using esmfUsable_none hu j i
  | cons v vs =>
    simp only [hv] at hu
    split at hu
    · rw [esmfUsable_some hu j i]
      simp only [stored, hf, ↓reduceIte, hidesValue]
      cases v.hidden <;> rfl
    · rename_i hn
      rw [esmfUsable_none hu j i]
      simp [anyHidden_false (by simpa using hn) 0 j i h0 hj hi]

theorem regridVar_inv {E : Regrid.Ext} {m : RMethod} {f : Regrid.Field} {es ed : EGrid} {sp : Bool}
    {fv : Option Rat} {v : Regrid.Var} {o : Out} (hf : f.yx = true)
    (h : regridVar E m f es ed sp fv v = .ok o) :
    o.name = v.name ∧ ∀ k j i,
      o.data k j i = (match E.weights m es ed i j with
        | none => fv.getD v.fill
        | some ws => weightedSum ws (v.data k)) ∧
      o.hidden k j i = (sp && decide (o.data k j i = fv.getD v.fill)) := by
  unfold regridVar at h
  simp only at h
  split at h
  · cases h
  · cases h
    · refine ⟨rfl, fun k j i => ⟨?_, rfl⟩⟩
      simp only
      cases E.weights m es ed i j with
      | none => rfl
      | some ws =>
        have he : esmfData f v k = fun i j => v.data k j i := by funext i j; simp [esmfData, stored, hf]
        show weighted ws (esmfData f v k) = weightedSum ws (v.data k)
        rw [he]
        exact regrid_weighted _ _

theorem weightedSum_congr {ws : List ((Nat × Nat) × Rat)} {d d' : Nat → Nat → Rat}
    (h : ∀ w ∈ ws, d w.1.2 w.1.1 = d' w.1.2 w.1.1) : weightedSum ws d = weightedSum ws d' := by
  induction ws with
  | nil => rfl
  | cons w ws ih =>
    simp only [weightedSum]
    rw [h w List.mem_cons_self, ih fun x hx => h x (List.mem_cons_of_mem _ hx)]

theorem diffs_range (n : Nat) (f : Nat → Rat) :
    diffs ((List.range (n + 1)).map f) = (List.range n).map fun i => f (i + 1) - f i := by
  induction n generalizing f with
  | zero => rfl
  | succ n ih =>
    rw [List.range_succ_eq_map, List.map_cons, List.map_map]
    have h1 : (List.range (n + 1)).map (f ∘ Nat.succ) = (f ∘ Nat.succ) 0 :: (List.map Nat.succ (List.range n)).map (f ∘ Nat.succ) := by
      rw [List.range_succ_eq_map, List.map_cons]
    rw [h1, diffs, ← h1, ih, List.range_succ_eq_map (n := n), List.map_cons, List.map_map]
    rfl

theorem absR_of_nonneg {q : Rat} (h : 0 ≤ q) : absR q = q := by
  unfold absR; rw [if_neg (by linarith)]

theorem absR_of_nonpos {q : Rat} (h : q ≤ 0) : absR q = -q := by
  unfold absR
  split
  · rfl
  · linarith

theorem regrid_absR_nonneg (q : Rat) : 0 ≤ absR q := by
  unfold absR; split <;> linarith

theorem absDiffs_evenly (a d : Rat) (n : Nat) :
    absDiffs (evenly a d (n + 1)) =
      (List.range n).map fun i => absR (absR (a + ((i + 1 : Nat) : Rat) * d) - absR (a + (i : Rat) * d)) := by
  unfold absDiffs evenly
  rw [List.map_map, diffs_range, List.map_map]
  rfl

theorem regrid_take_evenly (a d : Rat) (n l : Nat) : (evenly a d n).take l = evenly a d (min l n) := by
  unfold evenly
  rw [← List.map_take, List.take_range]

theorem sum_range_succ (f : Nat → Rat) (n : Nat) :
    ((List.range (n + 1)).map f).sum = ((List.range n).map f).sum + f n := by
  rw [List.range_succ, List.map_append, List.sum_append]; simp

theorem sum_range_const (f : Nat → Rat) (c : Rat) (n : Nat) (h : ∀ i, i < n → f i = c) :
    ((List.range n).map f).sum = (n : Rat) * c := by
  induction n with
  | zero => simp
  | succ n ih =>
    rw [sum_range_succ, ih fun i hi => h i (by omega), h n (by omega)]
    push_cast; ring

theorem absR_step {x d : Rat} (hd : 0 ≤ d) (h : 0 ≤ x ∨ x + d ≤ 0) : absR (absR (x + d) - absR x) = d := by
  rcases h with h | h
  · rw [absR_of_nonneg h, absR_of_nonneg (q := x + d) (by linarith), absR_of_nonneg (by linarith)]; ring
  · rw [absR_of_nonpos h, absR_of_nonpos (q := x) (by linarith), absR_of_nonpos (by linarith)]; ring

theorem absR_cross {x d : Rat} (h1 : x < 0) (h2 : 0 ≤ x + d) :
    absR (absR (x + d) - absR x) = absR (2 * (x + d) - d) := by
  rw [absR_of_nonneg h2, absR_of_nonpos (le_of_lt h1)]
  congr 1; ring

theorem resolution1_evenly (a d : Rat) (n : Nat) (h : 2 ≤ n) : ∃ m, 1 ≤ m ∧ (3 ≤ n → 2 ≤ m) ∧ m + 1 ≤ n ∧
    resolution1 (evenly a d n) =
      some (((List.range m).map fun i => absR (absR (a + ((i + 1 : Nat) : Rat) * d) - absR (a + (i : Rat) * d))).sum / (m : Rat)) := by
  refine ⟨min 100 n - 1, by omega, by omega, by omega, ?_⟩
  have hlen : (evenly a d n).length = n := by simp [evenly]
  unfold resolution1
  rw [if_neg (by omega), regrid_take_evenly]
  have e : min resolutionLimit n = (min 100 n - 1) + 1 := by unfold resolutionLimit; omega
  rw [e, absDiffs_evenly]
  unfold meanOf
  rw [if_neg]
  · simp only [mean, List.length_map, List.length_range]
  · intro h0
    have := congrArg List.length h0
    simp at this
    omega

theorem minOf_spec {l : List Rat} (h : l ≠ []) : minOf l ∈ l ∧ ∀ x ∈ l, minOf l ≤ x := by
  induction l with
  | nil => exact absurd rfl h
  | cons a l ih =>
    cases l with
    | nil => simp [minOf]
    | cons b l =>
      obtain ⟨h1, h2⟩ := ih (by simp)
      simp only [minOf]
      split
      · rename_i hle
        refine ⟨List.mem_cons_self, fun x hx => ?_⟩
        rcases List.mem_cons.1 hx with rfl | hx
        · exact le_refl _
        · exact le_trans hle (h2 x hx)
      · rename_i hle
        refine ⟨List.mem_cons_of_mem _ h1, fun x hx => ?_⟩
        rcases List.mem_cons.1 hx with rfl | hx
        · exact le_of_lt (not_le.1 hle)
        · exact h2 x hx

theorem maxOf_spec {l : List Rat} (h : l ≠ []) : maxOf l ∈ l ∧ ∀ x ∈ l, x ≤ maxOf l := by
  induction l with
  | nil => exact absurd rfl h
  | cons a l ih =>
    cases l with
    | nil => simp [maxOf]
    | cons b l =>
      obtain ⟨h1, h2⟩ := ih (by simp)
      simp only [maxOf]
      split
      · rename_i hle
        refine ⟨List.mem_cons_self, fun x hx => ?_⟩
        rcases List.mem_cons.1 hx with rfl | hx
        · exact le_refl _
        · exact le_trans (h2 x hx) hle
      · rename_i hle
        refine ⟨List.mem_cons_of_mem _ h1, fun x hx => ?_⟩
        rcases List.mem_cons.1 hx with rfl | hx
        · exact le_of_lt (not_le.1 hle)
        · exact h2 x hx

theorem mem_evenly {a d x : Rat} {n : Nat} : x ∈ evenly a d n ↔ ∃ i, i < n ∧ x = a + (i : Rat) * d := by
  unfold evenly
  rw [List.mem_map]
  constructor
  · rintro ⟨i, hi, rfl⟩; exact ⟨i, List.mem_range.1 hi, rfl⟩
  · rintro ⟨i, hi, rfl⟩; exact ⟨i, List.mem_range.2 hi, rfl⟩

theorem mul_mono {i j : Nat} {d : Rat} (hd : 0 ≤ d) (h : i ≤ j) : (i : Rat) * d ≤ (j : Rat) * d :=
  mul_le_mul_of_nonneg_right (by exact_mod_cast h) hd

theorem resolution_same (a d : Rat) (n : Nat) (hn : 2 ≤ n) (hd : 0 ≤ d) (h : 0 ≤ a ∨ a + ((n - 1 : Nat) : Rat) * d ≤ 0) :
    resolution1 (evenly a d n) = some d := by
  obtain ⟨m, h1, _, h3, h4⟩ := resolution1_evenly a d n hn
  rw [h4, sum_range_const _ d]
  · have : (m : Rat) ≠ 0 := by exact_mod_cast (by omega : m ≠ 0)
    rw [mul_div_cancel_left₀ _ this]
  · intro i hi
    have e : a + ((i + 1 : Nat) : Rat) * d = (a + (i : Rat) * d) + d := by push_cast; ring
    rw [e]
    apply absR_step hd
    rcases h with h | h
    · left
      have : 0 ≤ (i : Rat) * d := mul_nonneg (by exact_mod_cast Nat.zero_le i) hd
      linarith
    · right
      have : ((i + 1 : Nat) : Rat) * d ≤ ((n - 1 : Nat) : Rat) * d := mul_mono hd (by omega)
      rw [← e]; linarith

theorem crossing (a d : Rat) (n : Nat) (ha : a < 0) (h : 0 ≤ a + (n : Rat) * d) :
    ∃ k, k < n ∧ a + (k : Rat) * d < 0 ∧ 0 ≤ a + ((k + 1 : Nat) : Rat) * d := by
  induction n with
  | zero => simp at h; linarith
  | succ n ih =>
    by_cases hn : 0 ≤ a + (n : Rat) * d
    · obtain ⟨k, hk, h1, h2⟩ := ih hn
      exact ⟨k, by omega, h1, h2⟩
    · exact ⟨n, by omega, not_le.1 hn, h⟩

theorem crossing_sum (a d : Rat) (k : Nat) (hd : 0 < d) (h1 : a + (k : Rat) * d < 0)
    (h2 : 0 ≤ a + ((k + 1 : Nat) : Rat) * d) (m : Nat) :
    ((List.range m).map fun i => absR (absR (a + ((i + 1 : Nat) : Rat) * d) - absR (a + (i : Rat) * d))).sum =
      if m ≤ k then (m : Rat) * d else ((m : Rat) - 1) * d + absR (2 * (a + ((k + 1 : Nat) : Rat) * d) - d) := by
  induction m with
  | zero => simp
  | succ m ih =>
    rw [sum_range_succ, ih]
    have e : a + ((m + 1 : Nat) : Rat) * d = (a + (m : Rat) * d) + d := by push_cast; ring
    have ek : a + ((k + 1 : Nat) : Rat) * d = (a + (k : Rat) * d) + d := by push_cast; ring
    by_cases hm : m < k
    · rw [if_pos (by omega), if_pos (by omega), e, absR_step (le_of_lt hd)]
      · push_cast; ring
      · right
        rw [← e]
        have : ((m + 1 : Nat) : Rat) * d ≤ (k : Rat) * d := mul_mono (le_of_lt hd) (by omega)
        linarith
    · by_cases hmk : m = k
      · subst hmk
        rw [if_pos (le_refl _), if_neg (by omega)]
        have := absR_cross (x := a + (m : Rat) * d) (d := d) h1 (by rw [← ek]; exact h2)
        rw [← e] at this
        rw [this]
        push_cast; ring
      · rw [if_neg (by omega), if_neg (by omega), e, absR_step (le_of_lt hd)]
        · push_cast; ring
        · left
          have : ((k + 1 : Nat) : Rat) * d ≤ (m : Rat) * d := mul_mono (le_of_lt hd) (by omega)
          linarith

theorem averaging_faithful : RespectsMasks averaging := by
  constructor
  · intro m s d i j ws h w hw
    simp only [averaging] at h
    split at h
    · cases h
      obtain ⟨c, hc, rfl⟩ := List.mem_map.1 hw
      obtain ⟨h1, h2⟩ := List.mem_filter.1 hc
      obtain ⟨p, hp, h3⟩ := List.mem_flatMap.1 h1
      obtain ⟨q, hq, rfl⟩ := List.mem_map.1 h3
      exact ⟨List.mem_range.1 hp, List.mem_range.1 hq, h2⟩
    · cases h
  · intro m s d i j h
    simp only [averaging]
    rw [if_neg (by simp [h])]

theorem copying_faithful : RespectsMasks copying := by
  constructor
  · intro m s d i j ws h w hw
    simp only [copying] at h
    split at h
    · rename_i hc
      cases h
      cases List.mem_singleton.1 hw
      exact ⟨hc.1, hc.2.1, hc.2.2.1⟩
    · cases h
  · intro m s d i j h
    simp only [copying]
    rw [if_neg (by simp [h])]

theorem copying_sum : ∀ m s d i j ws, copying.weights m s d i j = some ws → (ws.map (·.2)).sum = 1 := by
  intro m s d i j ws h
  simp only [copying] at h
  split at h
  · cases h; simp
  · cases h

theorem one_ok {r : Except Err (List Out)} (p : Out → Bool)
    (h : (match r with
      | .ok [o] => p o
      | _ => false) = true) : ∃ o, r = .ok [o] ∧ p o = true := by
  split at h
  · exact ⟨_, rfl, h⟩
  · cases h

theorem one_err {r : Except Err (List Out)} {x : Err}
    (h : (match r with
      | .error e => decide (e = x)
      | _ => false) = true) : r = .error x := by
  split at h
  · rw [of_decide_eq_true h]
  · cases h

/-- The method ESMF is given. -/
theorem resolve_chosen {g d : Regrid.Grid} {m : Method} {vm vm' : Option MaskArr} {es ed : EGrid}
    (h1 : createEsmfGrid g m vm = .ok es) (h2 : createEsmfGrid d m vm' = .ok ed) :
    resolve m es ed = chosen m g.cells.isSome d.cells.isSome := by
  have key : ∀ {g : Regrid.Grid} {vm : Option MaskArr} {e : EGrid}, createEsmfGrid g .auto vm = .ok e →
      e.corner.isSome = g.cells.isSome := by
    intro g vm e h
    obtain ⟨u, c, _, hc, _, hsh, rfl⟩ := createEsmfGrid_inv h
    unfold esmfCorners at hc
    show c.isSome = _
    cases hg : g.cells with
    | none =>
      rw [hg] at hc
      simp at hc
      subst hc
      rfl
    | some cs =>
      rw [hg] at hc
      simp only [Option.isSome_some, and_self, or_true, if_true, if_pos hsh] at hc
      cases hc; rfl
  unfold resolve chosen
  cases m with
  | auto => simp only [key h1, key h2]; cases g.cells.isSome <;> cases d.cells.isSome <;> rfl
  | conserve => rfl
  | other n => rfl

end Ocgis.Props
