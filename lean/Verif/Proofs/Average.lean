import Verif.Spec.Average
import Mathlib.Tactic.Linarith
import Mathlib.Tactic.Ring
import Mathlib.Tactic.FieldSimp
import Mathlib.Algebra.Order.Field.Rat
/-!
# Lemmas
-/
namespace Ocgis.Average
open Ocgis Ocgis.Array

/-! ### The mean of masked lists -/

/-- Pairs (value, weight) where neither is masked, as (weight, value). -/
def both (ps : List (Option Rat × Option Rat)) : List (Rat × Rat) :=
  ps.filterMap fun a => a.1.bind fun x => a.2.map fun y => (y, x)

theorem sumSome_wgt (ps : List (Option Rat × Option Rat)) :
    sumSome (ps.map fun (x, y) => y.map fun y => if x.isNone then y * 0 else y) = ((both ps).map (·.1)).sum := by
  induction ps with
  | nil => rfl
  | cons a ps ih =>
    rcases a with ⟨_ | x, _ | y⟩ <;>
      simp_all [sumSome, both]

theorem sumSome_prod (ps : List (Option Rat × Option Rat)) :
    sumSome ((ps.map (·.1)).zip (ps.map fun (x, y) => y.map fun y => if x.isNone then y * 0 else y) |>.map
      fun (x, y) => x.bind fun x => y.map fun y => x * y) = ((both ps).map fun a => a.1 * a.2).sum := by
  induction ps with
  | nil => rfl
  | cons a ps ih =>
    rcases a with ⟨_ | x, _ | y⟩ <;>
      simp_all [sumSome, both, mul_comm]

theorem allNone_prod (ps : List (Option Rat × Option Rat)) :
    ((ps.map (·.1)).zip (ps.map fun (x, y) => y.map fun y => if x.isNone then y * 0 else y) |>.map
      fun (x, y) => x.bind fun x => y.map fun y => x * y).all (·.isNone) = (both ps).isEmpty := by
  induction ps with
  | nil => rfl
  | cons a ps ih =>
    rcases a with ⟨_ | x, _ | y⟩ <;> simp_all [both]

theorem averageFlat_eq (ps : List (Option Rat × Option Rat)) :
    averageFlat (ps.map (·.1)) (ps.map (·.2)) = if (both ps).isEmpty then none else some (wmean (both ps)) := by
  have hz : (ps.map (·.1)).zip (ps.map (·.2)) = ps := by
    induction ps with
    | nil => rfl
    | cons a ps ih => simp [ih]
  simp only [averageFlat, hz, wmean, sumSome_wgt, sumSome_prod, allNone_prod]

theorem both_perm {ps qs : List (Option Rat × Option Rat)} (h : ps.Perm qs) : (both ps).Perm (both qs) :=
  h.filterMap _

theorem wmean_perm {ps qs : List (Rat × Rat)} (h : ps.Perm qs) : wmean ps = wmean qs := by
  unfold wmean
  rw [(h.map fun a => a.1 * a.2).sum_eq, (h.map (·.1)).sum_eq]

theorem sum_div (l : List Rat) (m : Rat) : (l.map fun x => x / m).sum = l.sum / m := by
  induction l with
  | nil => simp
  | cons x l ih => simp only [List.map_cons, List.sum_cons, ih]; ring

/-- Dividing all weights by one number does not change the mean. -/
theorem wmean_scale (l : List (Rat × Rat)) {m : Rat} (hm : m ≠ 0) : wmean (l.map fun a => (a.1 / m, a.2)) = wmean l := by
  have h1 : ((l.map fun a => (a.1 / m, a.2)).map fun a => a.1 * a.2).sum = (l.map fun a => a.1 * a.2).sum / m := by
    rw [← sum_div, List.map_map, List.map_map]
    congr 1
    apply List.map_congr_left
    intro a _
    simp only [Function.comp_apply]
    ring
  have h2 : ((l.map fun a => (a.1 / m, a.2)).map (·.1)).sum = (l.map (·.1)).sum / m := by
    rw [← sum_div, List.map_map, List.map_map]
    rfl
  unfold wmean
  rw [h1, h2, div_div_div_cancel_right₀ hm]

theorem sum_pos_of (l : List (Rat × Rat)) (hne : l ≠ []) (h : ∀ a ∈ l, 0 < a.1) : 0 < (l.map (·.1)).sum := by
  induction l with
  | nil => exact absurd rfl hne
  | cons a l ih =>
    simp only [List.map_cons, List.sum_cons]
    have h1 := h a (List.mem_cons_self ..)
    by_cases hl : l = []
    · subst hl; simpa using h1
    · have := ih hl fun b hb => h b (List.mem_cons_of_mem _ hb)
      linarith

theorem wsum_ge (l : List (Rat × Rat)) (lo : Rat) (h : ∀ a ∈ l, 0 < a.1 ∧ lo ≤ a.2) :
    lo * (l.map (·.1)).sum ≤ (l.map fun a => a.1 * a.2).sum := by
  induction l with
  | nil => simp
  | cons a l ih =>
    simp only [List.map_cons, List.sum_cons]
    have h1 := h a (List.mem_cons_self ..)
    have h2 := ih fun b hb => h b (List.mem_cons_of_mem _ hb)
    have h3 : lo * a.1 ≤ a.1 * a.2 := by
      rw [mul_comm lo]; exact mul_le_mul_of_nonneg_left h1.2 h1.1.le
    linarith

theorem wsum_le (l : List (Rat × Rat)) (hi : Rat) (h : ∀ a ∈ l, 0 < a.1 ∧ a.2 ≤ hi) :
    (l.map fun a => a.1 * a.2).sum ≤ hi * (l.map (·.1)).sum := by
  induction l with
  | nil => simp
  | cons a l ih =>
    simp only [List.map_cons, List.sum_cons]
    have h1 := h a (List.mem_cons_self ..)
    have h2 := ih fun b hb => h b (List.mem_cons_of_mem _ hb)
    have h3 : a.1 * a.2 ≤ hi * a.1 := by
      rw [mul_comm hi]; exact mul_le_mul_of_nonneg_left h1.2 h1.1.le
    linarith

/-- A mean with positive weights lies between bounds of the values. -/
theorem wmean_between (l : List (Rat × Rat)) (hne : l ≠ []) (lo hi : Rat)
    (h : ∀ a ∈ l, 0 < a.1 ∧ lo ≤ a.2 ∧ a.2 ≤ hi) : lo ≤ wmean l ∧ wmean l ≤ hi := by
  have hp := sum_pos_of l hne fun a ha => (h a ha).1
  unfold wmean
  constructor
  · rw [le_div_iff₀ hp]; exact wsum_ge l lo fun a ha => ⟨(h a ha).1, (h a ha).2.1⟩
  · rw [div_le_iff₀ hp]; exact wsum_le l hi fun a ha => ⟨(h a ha).1, (h a ha).2.2⟩

/-! ### Places and multi-indices -/

theorem spot_congr (ds : List Dim) {p q : String → Nat} (h : ∀ d ∈ ds, p d.name = q d.name) : spot ds p = spot ds q := by
  unfold spot
  exact List.map_congr_left h

theorem places_spot (ds : List Dim) (hnd : (ds.map (·.name)).Nodup) : (places ds).map (spot ds) = indices (sizes ds) := by
  induction ds with
  | nil => rfl
  | cons d ds ih =>
    simp only [List.map_cons, List.nodup_cons] at hnd
    simp only [places, sizes, List.map_cons, indices, List.map_flatMap]
    congr 1
    funext i
    rw [List.map_map]
    have hs : indices (List.map (fun x => x.size) ds) = (places ds).map (spot ds) := (ih hnd.2).symm
    rw [hs, List.map_map]
    apply List.map_congr_left
    intro p _
    show spot (d :: ds) (fun n => if n = d.name then i else p n) = i :: spot ds p
    unfold spot
    simp only [List.map_cons, ↓reduceIte, List.cons.injEq, true_and]
    apply List.map_congr_left
    intro e he
    rw [if_neg]
    intro h
    exact hnd.1 (h ▸ List.mem_map_of_mem he)

theorem indices_mem {ns : List Nat} {i : List Nat} :
    i ∈ indices ns ↔ i.length = ns.length ∧ ∀ (k : Nat) (n : Nat), ns[k]? = some n → i.getD k 0 < n := by
  induction ns generalizing i with
  | nil =>
    simp only [indices, List.mem_singleton, List.length_nil, List.length_eq_zero_iff, List.getElem?_nil]
    constructor
    · intro h; exact ⟨h, fun _ _ h => by cases h⟩
    · exact fun h => h.1
  | cons n ns ih =>
    simp only [indices, List.mem_flatMap, List.mem_range, List.mem_map]
    constructor
    · rintro ⟨a, ha, j, hj, rfl⟩
      obtain ⟨h1, h2⟩ := ih.1 hj
      refine ⟨by simp [h1], ?_⟩
      intro k m hk
      cases k with
      | zero => simp only [List.getElem?_cons_zero, Option.some.injEq] at hk; subst hk; simpa using ha
      | succ k => simp only [List.getElem?_cons_succ] at hk; simpa using h2 k m hk
    · rintro ⟨h1, h2⟩
      cases i with
      | nil => simp at h1
      | cons a j =>
        refine ⟨a, by simpa using h2 0 n rfl, j, ih.2 ⟨by simpa using h1, ?_⟩, rfl⟩
        intro k m hk
        simpa using h2 (k + 1) m (by simpa using hk)

theorem spot_mem_indices {ds : List Dim} {t : String → Nat} (h : Within ds t) : spot ds t ∈ indices (sizes ds) := by
  induction ds with
  | nil => simp [spot, sizes, indices]
  | cons d ds ih =>
    simp only [spot, sizes, List.map_cons, indices, List.mem_flatMap, List.mem_range, List.mem_map]
    exact ⟨t d.name, h d (List.mem_cons_self ..), _, ih fun e he => h e (List.mem_cons_of_mem _ he), rfl⟩

/-! ### The slice and the squeeze -/

theorem keepMask_squeezeOut (gd vd : List Dim) :
    keepMask vd.length (squeezeOut gd vd) = vd.map fun d => (names gd).contains d.name := by
  unfold keepMask squeezeOut
  apply List.ext_getElem
  · simp
  · intro k h1 h2
    simp only [List.length_map, List.length_range] at h1
    simp only [List.getElem_map, List.getElem_range, List.contains_eq_mem, List.mem_filter, List.mem_range, h1, true_and,
      List.getElem?_eq_getElem h1, Option.elim_some]
    by_cases hc : vd[k].name ∈ names gd <;> simp [hc]

theorem sliceShape_length (gd vd : List Dim) : (sliceShape gd vd).length = vd.length := by simp [sliceShape]

theorem squeeze_ok (gd vd : List Dim) :
    ((squeezeOut gd vd).all fun k => (sliceShape gd vd)[k]? = some 1) = true := by
  rw [List.all_eq_true]
  intro k hk
  simp only [squeezeOut, List.mem_filter, List.mem_range] at hk
  obtain ⟨h1, h2⟩ := hk
  simp only [List.getElem?_eq_getElem h1, Option.elim_some, Bool.not_eq_true', List.contains_eq_mem,
    decide_eq_false_iff_not] at h2
  simp only [sliceShape, List.getElem?_map, List.getElem?_eq_getElem h1, Option.map_some, List.contains_eq_mem, h2,
    decide_false, Bool.false_eq_true, ↓reduceIte, decide_true]

theorem keepIdx_shape (gd vd : List Dim) :
    keepIdx (vd.map fun d => (names gd).contains d.name) (sliceShape gd vd) = sizes (spatialDims gd vd) := by
  induction vd with
  | nil => rfl
  | cons d vd ih =>
    by_cases hc : (names gd).contains d.name
    · simp only [List.map_cons, sliceShape, hc, ↓reduceIte, keepIdx, spatialDims, List.filter_cons, sizes,
        List.map_cons, List.cons.injEq, true_and]
      exact ih
    · simp only [List.map_cons, sliceShape, hc, Bool.false_eq_true, ↓reduceIte, keepIdx, spatialDims, List.filter_cons]
      exact ih

/-- Where the squeezed slice reads. -/
theorem slice_position (gd : List Dim) (t p : String → Nat) (start : Dim → Nat) (vd : List Dim)
    (hs : ∀ d ∈ vd, start d = if (names gd).contains d.name then 0 else t d.name) :
    ((vd.map start).zip (expandIdx (vd.map fun d => (names gd).contains d.name) (spot (spatialDims gd vd) p))).map
      (fun (a, b) => a + b) = spot vd (along gd p t) := by
  induction vd with
  | nil => rfl
  | cons d vd ih =>
    have ih' := ih fun e he => hs e (List.mem_cons_of_mem _ he)
    have hd := hs d (List.mem_cons_self ..)
    by_cases hc : (names gd).contains d.name = true
    · have hm : d.name ∈ gd.map (·.name) := by simpa [names] using hc
      simp only [hc, ↓reduceIte] at hd
      simp only [List.map_cons, hc, spatialDims, List.filter_cons, ↓reduceIte, spot, expandIdx, List.zip_cons_cons, hd,
        Nat.zero_add, along, hm, List.cons.injEq, true_and]
      exact ih'
    · have hm : d.name ∉ gd.map (·.name) := by simpa [names] using hc
      simp only [hc, Bool.false_eq_true, ↓reduceIte] at hd
      simp only [List.map_cons, hc, spatialDims, List.filter_cons, ↓reduceIte, spot, expandIdx, List.zip_cons_cons, hd,
        Nat.add_zero, along, hm, List.cons.injEq, true_and, Bool.false_eq_true]
      exact ih'

theorem getD_spot_idxOf (it : List Dim) (t : String → Nat) {d : Dim} (hd : d ∈ it) :
    (spot it t).getD ((names it).idxOf d.name) 0 = t d.name := by
  induction it with
  | nil => cases hd
  | cons e it ih =>
    by_cases h : e.name = d.name
    · simp [names, spot, h]
    · have hd' : d ∈ it := by
        rcases List.mem_cons.1 hd with rfl | h'
        · exact absurd rfl h
        · exact h'
      have hne : (e.name == d.name) = false := by simpa using h
      simp only [names, spot, List.map_cons, List.idxOf_cons, hne, cond_false, List.getD_cons_succ]
      exact ih hd'

/-- The slice of the data at `t`, without the iterated dimensions, at a place of the geometries. -/
theorem squeezed_slice (gd : List Dim) (v : Var) (t : String → Nat) :
    ∃ d, (sliceAt gd v (spot (iterDims gd v.dims) t)).squeeze (squeezeOut gd v.dims) = .ok d ∧
      d.shape = sizes (spatialDims gd v.dims) ∧
      ∀ p, d.elem (spot (spatialDims gd v.dims) p) = (maskedValue v).elem (spot v.dims (along gd p t)) := by
  refine ⟨⟨keepIdx (keepMask (sliceShape gd v.dims).length (squeezeOut gd v.dims)) (sliceShape gd v.dims),
    fun idx => (sliceAt gd v (spot (iterDims gd v.dims) t)).elem
      (expandIdx (keepMask (sliceShape gd v.dims).length (squeezeOut gd v.dims)) idx)⟩, ?_, ?_, ?_⟩
  · unfold Arr.squeeze
    exact if_pos (squeeze_ok gd v.dims)
  · simp only [sliceShape_length, keepMask_squeezeOut, keepIdx_shape]
  · intro p
    simp only [sliceAt, sliceShape_length, keepMask_squeezeOut]
    congr 1
    apply slice_position gd t p _ v.dims
    intro d hd
    by_cases hc : (names gd).contains d.name = true
    · simp only [hc, ↓reduceIte]
    · simp only [hc, Bool.false_eq_true, ↓reduceIte]
      apply getD_spot_idxOf
      simp only [iterDims, List.mem_filter, hd, hc, true_and, Bool.not_false]

theorem element_eq (v : Var) (i : List Nat) : (maskedValue v).elem i = element v i := by
  unfold maskedValue element
  cases v.mask <;> rfl

theorem element_some {v : Var} {i : List Nat} {x : Rat} (h : element v i = some x) : x = v.value.elem i := by
  unfold element at h
  split at h
  · simpa using h.symm
  · split at h
    · cases h
    · simpa using h.symm

/-! ### Weights -/

theorem foldl_max_mem (xs : List Rat) (x : Rat) : xs.foldl max x = x ∨ xs.foldl max x ∈ xs := by
  induction xs generalizing x with
  | nil => exact Or.inl rfl
  | cons y xs ih =>
    simp only [List.foldl_cons]
    rcases ih (max x y) with h | h
    · rw [h]
      rcases max_choice x y with h' | h'
      · exact Or.inl h'
      · right; rw [h']; exact List.mem_cons_self ..
    · exact Or.inr (List.mem_cons_of_mem _ h)

theorem maxOf_mem {l : List Rat} (hne : l ≠ []) : ∃ m ∈ l, maxOf l = some m := by
  cases l with
  | nil => exact absurd rfl hne
  | cons x xs =>
    refine ⟨xs.foldl max x, ?_, rfl⟩
    rcases foldl_max_mem xs x with h | h
    · rw [h]; exact List.mem_cons_self ..
    · exact List.mem_cons_of_mem _ h

theorem weightData_pos {G : Type} {S : Shapely G} (hS : ∀ g, 0 ≤ S.area g) (g : GVar G) (i : List Nat) :
    0 < weightData S g i := by
  have h0 : 0 ≤ areaData S g i := by
    unfold areaData
    split
    · exact zero_le_one
    · exact hS _
  unfold weightData
  split
  · exact zero_lt_one
  · rename_i h
    exact lt_of_le_of_ne h0 (Ne.symm h)

theorem weightData_eq {G : Type} (S : Shapely G) (g : GVar G) {i : List Nat} (h : g.masked i = false) :
    weightData S g i = weightOf S (g.geom i) := by
  simp only [weightData, weightOf, areaData, h, Bool.false_eq_true, ↓reduceIte]

theorem weightOf_pos {G : Type} {S : Shapely G} (hS : ∀ g, 0 ≤ S.area g) (x : G) : 0 < weightOf S x := by
  unfold weightOf
  split
  · exact zero_lt_one
  · rename_i h
    exact lt_of_le_of_ne (hS x) (Ne.symm h)

/-- The weights are the documented ones, divided by one positive number. -/
theorem weights_scaled {G : Type} {S : Shapely G} (hS : ∀ g, 0 ≤ S.area g) (g : GVar G) :
    ∃ m : Rat, 0 < m ∧ ∀ i ∈ indices (sizes g.dims),
      (weights S g).elem i = if g.masked i then none else some (weightOf S (g.geom i) / m) := by
  by_cases hne : (((indices (sizes g.dims)).filter fun i => !g.masked i).map (weightData S g)) = []
  · refine ⟨1, zero_lt_one, ?_⟩
    intro i hi
    have hm : g.masked i = true := by
      simp only [List.map_eq_nil_iff, List.filter_eq_nil_iff, Bool.not_eq_true', Bool.not_eq_false] at hne
      exact hne i hi
    simp only [weights, hm, ↓reduceIte]
  · obtain ⟨m, hm, he⟩ := maxOf_mem hne
    obtain ⟨j, _, rfl⟩ := List.mem_map.1 hm
    refine ⟨_, weightData_pos hS g j, ?_⟩
    intro i _
    simp only [weights, he, Option.map_some]
    cases hmi : g.masked i with
    | true => simp
    | false => simp [weightData_eq S g hmi]

theorem both_weights {G : Type} {S : Shapely G} (hS : ∀ g, 0 ≤ S.area g) (g : GVar G)
    (hnd : (g.dims.map (·.name)).Nodup) (v : Var) (t : String → Nat) :
    ∃ m : Rat, 0 < m ∧ both ((places g.dims).map fun p =>
        (element v (spot v.dims (along g.dims p t)), (weights S g).elem (spot g.dims p))) =
      (weighted S g v t).map fun a => (a.1 / m, a.2) := by
  obtain ⟨m, hm, he⟩ := weights_scaled hS g
  refine ⟨m, hm, ?_⟩
  have hmem : ∀ p ∈ places g.dims, spot g.dims p ∈ indices (sizes g.dims) := by
    intro p hp
    rw [← places_spot g.dims hnd]
    exact List.mem_map_of_mem hp
  unfold both weighted valid
  rw [List.map_map]
  generalize places g.dims = ps at hmem
  induction ps with
  | nil => rfl
  | cons p ps ih =>
    have ih' := ih fun q hq => hmem q (List.mem_cons_of_mem _ hq)
    simp only [List.map_cons, List.filterMap_cons, List.filter_cons]
    rw [he _ (hmem p (List.mem_cons_self ..)), ih']
    cases hmk : g.masked (spot g.dims p) with
    | true => cases element v (spot v.dims (along g.dims p t)) <;> simp
    | false =>
      cases hel : element v (spot v.dims (along g.dims p t)) with
      | none => simp
      | some x => simp [element_some hel]

theorem indices_map {α : Type} (ds : List Dim) (hnd : (ds.map (·.name)).Nodup) (f : List Nat → α) :
    (indices (sizes ds)).map f = (places ds).map fun p => f (spot ds p) := by
  rw [← places_spot ds hnd, List.map_map]
  rfl

theorem weighted_isEmpty {G : Type} (S : Shapely G) (g : GVar G) (v : Var) (t : String → Nat) :
    (weighted S g v t).isEmpty = (valid g v t).isEmpty := by
  simp [weighted]

/-- The average of the elements of a variable with the weights of the geometries. -/
theorem averageFlat_weights {G : Type} {S : Shapely G} (hS : ∀ g, 0 ≤ S.area g) (g : GVar G)
    (hnd : (g.dims.map (·.name)).Nodup) (v : Var) (t : String → Nat) (qs : List (Option Rat × Option Rat))
    (hqs : qs.Perm ((places g.dims).map fun p =>
        (element v (spot v.dims (along g.dims p t)), (weights S g).elem (spot g.dims p)))) :
    averageFlat (qs.map (·.1)) (qs.map (·.2)) =
      if (valid g v t).isEmpty then none else some (wmean (weighted S g v t)) := by
  obtain ⟨m, hm, hb⟩ := both_weights hS g hnd v t
  have hp := both_perm hqs
  rw [hb] at hp
  rw [averageFlat_eq, ← weighted_isEmpty S]
  have hempty : (both qs).isEmpty = (weighted S g v t).isEmpty := by
    have := hp.length_eq
    rw [List.length_map] at this
    rw [Bool.eq_iff_iff, List.isEmpty_iff_length_eq_zero, List.isEmpty_iff_length_eq_zero, this]
  rw [hempty, wmean_perm hp, wmean_scale _ (ne_of_gt hm)]

theorem stepAverage_eq {G : Type} {S : Shapely G} (hS : ∀ g, 0 ≤ S.area g) (g : GVar G) (v : Var)
    (hnd : (g.dims.map (·.name)).Nodup) (hsp : spatialDims g.dims v.dims = g.dims) (t : String → Nat) :
    stepAverage g.dims v (weights S g) (spot (iterDims g.dims v.dims) t) =
      .ok (if (valid g v t).isEmpty then none else some (wmean (weighted S g v t))) := by
  obtain ⟨d, hd, hshape, helem⟩ := squeezed_slice g.dims v t
  rw [hsp] at hshape helem
  have hw : (weights S g).shape = sizes g.dims := rfl
  simp only [stepAverage, hd, bind, Except.bind, average]
  rw [if_neg (by rw [hshape, hw]; exact fun h => h rfl), hshape, hw]
  congr 1
  rw [indices_map g.dims hnd, indices_map g.dims hnd]
  have := averageFlat_weights hS g hnd v t _ (List.Perm.refl _)
  rw [← this, List.map_map, List.map_map]
  congr 1
  apply List.map_congr_left
  intro p _
  simp only [Function.comp_apply, helem, element_eq]

/-! ### One variable -/

theorem dims_eq_of_names {l gd : List Dim} (hn : names l = names gd)
    (same : ∀ d ∈ l, ∀ e ∈ gd, d.name = e.name → d = e) : l = gd := by
  induction l generalizing gd with
  | nil =>
    cases gd with
    | nil => rfl
    | cons e gd => simp [names] at hn
  | cons d l ih =>
    cases gd with
    | nil => simp [names] at hn
    | cons e gd =>
      simp only [names, List.map_cons, List.cons.injEq] at hn
      rw [same d (List.mem_cons_self ..) e (List.mem_cons_self ..) hn.1,
        ih hn.2 fun a ha b hb => same a (List.mem_cons_of_mem _ ha) b (List.mem_cons_of_mem _ hb)]

theorem spatial_names_nodup {gd vd : List Dim} (h : (vd.map (·.name)).Nodup) : (names (spatialDims gd vd)).Nodup := by
  unfold names spatialDims
  exact h.sublist (List.Sublist.map _ List.filter_sublist)

theorem swapTuple_eq {a d : List String} (hd : d.Nodup) (h : swapTuple a d = .ok ()) : d = a := by
  unfold swapTuple at h
  split at h
  · cases h
  · rename_i hs
    split at h
    · rename_i h2
      simp only [Bool.not_eq_true', Bool.not_eq_false, Bool.and_eq_true, List.all_eq_true, List.contains_eq_mem,
        decide_eq_true_eq] at hs
      have hsub : d.length ≤ a.length := by
        have hp : d.Subperm a := List.subperm_of_subset hd fun x hx => hs.2 x hx
        exact hp.length_le
      rw [List.take_of_length_le hsub] at h2
      exact h2.2
    · cases h

theorem swapTuple_self (a : List String) : swapTuple a a = .ok () := by
  unfold swapTuple
  have h1 : (a.all a.contains && a.all a.contains) = true := by simp
  rw [h1]
  simp

theorem spatial_eq_of_swap {G : Type} {g : GVar G} {v : Var} (hf : Fits g v)
    (h : swapTuple (names g.dims) (names (spatialDims g.dims v.dims)) = .ok ()) : spatialDims g.dims v.dims = g.dims := by
  apply dims_eq_of_names (swapTuple_eq (spatial_names_nodup hf.names) h)
  intro d hd e he
  exact hf.same d (List.mem_filter.1 hd).1 e he

theorem getD_map_idxOf {α β : Type} [BEq α] [LawfulBEq α] (l : List α) (h : α → β) (x : α) (hx : x ∈ l) (dflt : β) :
    (l.map h).getD (l.idxOf x) dflt = h x := by
  have hl : l.idxOf x < l.length := List.idxOf_lt_length_iff.2 hx
  simp only [List.getD_eq_getElem?_getD, List.getElem?_map, List.getElem?_eq_getElem hl, Option.map_some,
    Option.getD_some]
  rw [List.getElem_idxOf]

theorem mapM_eq_map {α β : Type} (l : List α) (f : α → Res β) (h : α → β) (hf : ∀ x ∈ l, f x = .ok (h x)) :
    l.mapM f = .ok (l.map h) := by
  induction l with
  | nil => rfl
  | cons x l ih =>
    rw [List.mapM_cons, hf x (List.mem_cons_self ..), ih fun y hy => hf y (List.mem_cons_of_mem _ hy)]
    rfl

theorem iterDims_names_nodup {gd vd : List Dim} (h : (vd.map (·.name)).Nodup) : ((iterDims gd vd).map (·.name)).Nodup := by
  unfold iterDims
  exact h.sublist (List.Sublist.map _ List.filter_sublist)

theorem others_eq {G : Type} (g : GVar G) (v : Var) : others g v = iterDims g.dims v.dims := by
  unfold others iterDims
  congr 1
  funext d
  simp only [List.contains_eq_mem]
  by_cases hc : d.name ∈ names g.dims
  · have hc' : d.name ∈ g.dims.map (·.name) := hc
    simp [hc, hc']
  · have hc' : d.name ∉ g.dims.map (·.name) := hc
    simp [hc, hc']

theorem newDims_eq {G : Type} (g : GVar G) (v : Var) (u : Dim) :
    newDims v.dims (names g.dims) u = others g v ++ [u] := by
  rw [others_eq]; rfl

/-- A variable with other dimensions than those of the geometries. -/
theorem averageIter_spec {G : Type} {S : Shapely G} (hS : ∀ g, 0 ≤ S.area g) {g : GVar G} {v r : Var} {u : Dim}
    (hf : Fits g v) (h : averageIter S g u v = .ok r) :
    r.name = v.name ∧ r.dims = others g v ++ [u] ∧ r.value.shape = r.dims.map (·.size) ∧ r.mask = none ∧
      ∀ t, Within (others g v) t → r.value.elem (spot (others g v) t ++ [0]) =
        if (valid g v t).isEmpty then 0 else wmean (weighted S g v t) := by
  unfold averageIter at h
  cases hsw : swapTuple (names g.dims) (names (spatialDims g.dims v.dims)) with
  | error e => rw [hsw] at h; cases h
  | ok _ =>
    have hsp := spatial_eq_of_swap hf hsw
    rw [hsw] at h
    have hstep : ∀ i ∈ indices (sizes (iterDims g.dims v.dims)), stepAverage g.dims v (weights S g) i =
        .ok (match stepAverage g.dims v (weights S g) i with | .ok x => x | .error _ => none) := by
      intro i hi
      rw [← places_spot _ (iterDims_names_nodup hf.names)] at hi
      obtain ⟨t, _, rfl⟩ := List.mem_map.1 hi
      rw [stepAverage_eq hS g v hf.geom_names hsp t]
    simp only [bind, Except.bind] at h
    rw [mapM_eq_map _ _ _ hstep] at h
    simp only [Except.ok.injEq] at h
    subst h
    refine ⟨rfl, newDims_eq g v u, rfl, rfl, ?_⟩
    intro t ht
    rw [others_eq] at ht ⊢
    simp only [List.dropLast_concat]
    rw [getD_map_idxOf _ _ _ (spot_mem_indices ht), stepAverage_eq hS g v hf.geom_names hsp t]
    show assigned (if (valid g v t).isEmpty then none else some (wmean (weighted S g v t))) = _
    cases (valid g v t).isEmpty <;> rfl

theorem averageIter_ok_iff {G : Type} {S : Shapely G} (hS : ∀ g, 0 ≤ S.area g) {g : GVar G} {v : Var} {u : Dim}
    (hf : Fits g v) :
    (∃ r, averageIter S g u v = .ok r) ↔ names (spatialDims g.dims v.dims) = names g.dims := by
  constructor
  · rintro ⟨r, h⟩
    unfold averageIter at h
    cases hsw : swapTuple (names g.dims) (names (spatialDims g.dims v.dims)) with
    | error e => rw [hsw] at h; cases h
    | ok _ => exact swapTuple_eq (spatial_names_nodup hf.names) hsw
  · intro hn
    have hsw : swapTuple (names g.dims) (names (spatialDims g.dims v.dims)) = .ok () := by
      rw [hn]; exact swapTuple_self _
    have hsp := spatial_eq_of_swap hf hsw
    have hstep : ∀ i ∈ indices (sizes (iterDims g.dims v.dims)), stepAverage g.dims v (weights S g) i =
        .ok (match stepAverage g.dims v (weights S g) i with | .ok x => x | .error _ => none) := by
      intro i hi
      rw [← places_spot _ (iterDims_names_nodup hf.names)] at hi
      obtain ⟨t, _, rfl⟩ := List.mem_map.1 hi
      rw [stepAverage_eq hS g v hf.geom_names hsp t]
    unfold averageIter
    rw [hsw]
    simp only [bind, Except.bind]
    rw [mapM_eq_map _ _ _ hstep]
    exact ⟨_, rfl⟩

/-! ### A variable with the dimensions of the geometries -/

theorem insertKey_perm (l : List (Option Rat)) (i : Nat) (s : List Nat) : (insertKey l i s).Perm (i :: s) := by
  induction s with
  | nil => exact List.Perm.refl _
  | cons j s ih =>
    unfold insertKey
    split
    · exact List.Perm.refl _
    · exact (ih.cons j).trans (List.Perm.swap i j s)

theorem argsort_perm (l : List (Option Rat)) : (argsort l).Perm (List.range l.length) := by
  unfold argsort
  induction List.range l.length with
  | nil => exact List.Perm.refl _
  | cons i s ih => exact (insertKey_perm l i _).trans (ih.cons i)

theorem take_range {α : Type} (l : List α) : take l (List.range l.length) = l := by
  unfold take
  induction l with
  | nil => rfl
  | cons x l ih =>
    rw [List.length_cons, List.range_succ_eq_map, List.filterMap_cons, List.filterMap_map]
    simp only [List.getElem?_cons_zero]
    congr 1

/-- Values and weights are permuted in the same way. -/
theorem take_pairs {α β : Type} (ps : List (α × β)) (s : List Nat) :
    take (ps.map (·.1)) s = (take ps s).map (·.1) ∧ take (ps.map (·.2)) s = (take ps s).map (·.2) := by
  unfold take
  constructor <;>
  · induction s with
    | nil => rfl
    | cons i s ih =>
      simp only [List.filterMap_cons, List.getElem?_map]
      cases ps[i]? with
      | none => simpa using ih
      | some p => simpa using ih

theorem take_perm {α : Type} (ps : List α) {s : List Nat} (h : s.Perm (List.range ps.length)) : (take ps s).Perm ps := by
  have h' : (take ps s).Perm (take ps (List.range ps.length)) := h.filterMap _
  rwa [take_range] at h'

/-- A variable that has the dimensions of the geometries, in this order. -/
theorem averageFlatVar_spec {G : Type} {S : Shapely G} (hS : ∀ g, 0 ≤ S.area g) {g : GVar G} {v r : Var} {nd : List Dim}
    (hf : Fits g v) (hd : v.dims = g.dims) (h : averageFlatVar S g nd v = .ok r) (t : String → Nat) :
    sizes nd = [1] ∧ r.name = v.name ∧ r.dims = nd ∧ r.value.shape = r.dims.map (·.size) ∧
      ∀ i, element r i = if (valid g v t).isEmpty then none else some (wmean (weighted S g v t)) := by
  have hspot : ∀ p, spot v.dims (along g.dims p t) = spot g.dims p := by
    intro p
    rw [hd]
    apply spot_congr
    intro d hd'
    simp only [along, List.mem_map_of_mem hd', ↓reduceIte]
  let qs := (places g.dims).map fun p =>
        (element v (spot v.dims (along g.dims p t)), (weights S g).elem (spot g.dims p))
  have ha : (indices v.value.shape).map (maskedValue v).elem = qs.map (·.1) := by
    rw [hf.shape, hd]
    show (indices (sizes g.dims)).map _ = _
    rw [indices_map g.dims hf.geom_names, List.map_map]
    apply List.map_congr_left
    intro p _
    simp only [Function.comp_apply, element_eq, hspot]
  have hw : (indices (sizes g.dims)).map (weights S g).elem = qs.map (·.2) := by
    rw [indices_map g.dims hf.geom_names, List.map_map]
    rfl
  have hperm : (take qs (argsort (qs.map (·.1)))).Perm qs := by
    apply take_perm
    have := argsort_perm (qs.map (·.1))
    rwa [List.length_map] at this
  have hx := averageFlat_weights hS g hf.geom_names v t _ hperm
  simp only [averageFlatVar, ha, hw, List.length_map, Nat.lt_irrefl, ↓reduceIte] at h
  rw [(take_pairs qs _).1, (take_pairs qs _).2, hx] at h
  split at h
  · cases h
  · rename_i hn
    simp only [ne_eq, Decidable.not_not] at hn
    simp only [Except.ok.injEq] at h
    subst h
    refine ⟨hn, rfl, rfl, hn.symm, ?_⟩
    intro i
    unfold element
    cases hv : (valid g v t).isEmpty <;> simp [assigned]

/-! ### The collection -/

theorem averageAll_get {G : Type} {S : Shapely G} {g : GVar G} {u : Dim} {tw : List String} (vs : List Var) :
    ∀ (nd : List Dim) (out : List Var), averageAll S g u tw nd vs = .ok out →
      (nd = [u] ∨ 2 ≤ nd.length) →
      out.length = vs.length ∧ ∀ (k : Nat) (v : Var), vs[k]? = some v → ∃ r, out[k]? = some r ∧
        (v.name ∉ tw → r = v) ∧
        (v.name ∈ tw → others g v = [] → ∃ nd', (nd' = [u] ∨ 2 ≤ nd'.length) ∧ averageFlatVar S g nd' v = .ok r) ∧
        (v.name ∈ tw → others g v ≠ [] → averageIter S g u v = .ok r) := by
  induction vs with
  | nil =>
    intro nd out h _
    simp only [averageAll, Except.ok.injEq] at h
    subst h
    exact ⟨rfl, fun k v hk => by simp at hk⟩
  | cons v vs ih =>
    intro nd out h hnd
    simp only [averageAll] at h
    have key : ∀ (x : Var) (nd2 : List Dim) (r : List Var), averageAll S g u tw nd2 vs = .ok r →
        (nd2 = [u] ∨ 2 ≤ nd2.length) → out = x :: r →
        ((v.name ∉ tw → x = v) ∧
        (v.name ∈ tw → others g v = [] → ∃ nd', (nd' = [u] ∨ 2 ≤ nd'.length) ∧ averageFlatVar S g nd' v = .ok x) ∧
        (v.name ∈ tw → others g v ≠ [] → averageIter S g u v = .ok x)) →
        out.length = (v :: vs).length ∧ ∀ (k : Nat) (w : Var), (v :: vs)[k]? = some w → ∃ r, out[k]? = some r ∧
        (w.name ∉ tw → r = w) ∧
        (w.name ∈ tw → others g w = [] → ∃ nd', (nd' = [u] ∨ 2 ≤ nd'.length) ∧ averageFlatVar S g nd' w = .ok r) ∧
        (w.name ∈ tw → others g w ≠ [] → averageIter S g u w = .ok r) := by
      rintro x nd2 r hr hnd2 rfl hx
      obtain ⟨h1, h2⟩ := ih nd2 r hr hnd2
      refine ⟨by simp [h1], ?_⟩
      intro k w hk
      cases k with
      | zero =>
        simp only [List.getElem?_cons_zero, Option.some.injEq] at hk
        subst hk
        exact ⟨x, rfl, hx⟩
      | succ k =>
        simp only [List.getElem?_cons_succ] at hk ⊢
        exact h2 k w hk
    split at h
    · rename_i hc
      have hmem : v.name ∈ tw := by simpa using hc
      split at h
      · rename_i hi
        have hi' : others g v = [] := by rw [others_eq]; simpa using hi
        cases hx : averageFlatVar S g nd v with
        | error e => rw [hx] at h; cases h
        | ok x =>
          cases hr : averageAll S g u tw nd vs with
          | error e => rw [hx, hr] at h; cases h
          | ok r =>
            rw [hx, hr] at h
            simp only [bind, Except.bind, Except.ok.injEq] at h
            exact key x nd r hr hnd h.symm ⟨fun hn => absurd hmem hn, fun _ _ => ⟨nd, hnd, hx⟩, fun _ ho => absurd hi' ho⟩
      · rename_i hi
        have hi' : others g v ≠ [] := by rw [others_eq]; simpa using hi
        cases hx : averageIter S g u v with
        | error e => rw [hx] at h; cases h
        | ok x =>
          cases hr : averageAll S g u tw (newDims v.dims (names g.dims) u) vs with
          | error e => rw [hx, hr] at h; cases h
          | ok r =>
            rw [hx, hr] at h
            simp only [bind, Except.bind, Except.ok.injEq] at h
            refine key x _ r hr (Or.inr ?_) h.symm ⟨fun hn => absurd hmem hn, fun _ ho => absurd ho hi', fun _ _ => hx⟩
            rw [newDims_eq, List.length_append]
            have := List.length_pos_of_ne_nil hi'
            simp only [List.length_cons, List.length_nil]
            omega
    · rename_i hc
      have hmem : v.name ∉ tw := by simpa using hc
      cases hr : averageAll S g u tw nd vs with
      | error e => rw [hr] at h; cases h
      | ok r =>
        rw [hr] at h
        simp only [bind, Except.bind, Except.ok.injEq] at h
        exact key v nd r hr hnd h.symm ⟨fun _ => rfl, fun hn => absurd hn hmem, fun hn => absurd hn hmem⟩

theorem newDims_geom {G : Type} (g : GVar G) (u : Dim) : newDims g.dims (names g.dims) u = [u] := by
  unfold newDims
  have : (g.dims.filter fun d => !(names g.dims).contains d.name) = [] := by
    rw [List.filter_eq_nil_iff]
    intro d hd
    simp only [names, List.contains_eq_mem, List.mem_map_of_mem hd, decide_true, Bool.not_true, Bool.false_eq_true,
      not_false_eq_true]
  rw [this]
  rfl

theorem sizes_one {u : Dim} {nd : List Dim} (h : nd = [u] ∨ 2 ≤ nd.length) (hs : sizes nd = [1]) : nd = [u] := by
  rcases h with h | h
  · exact h
  · have := congrArg List.length hs
    simp only [sizes, List.length_map, List.length_cons, List.length_nil] at this
    omega

theorem getUnioned_get {G : Type} {S : Shapely G} {g : GVar G} {vs : List Var} {u : Dim} {tw : List String} {x : GVar G}
    {out : List Var} (h : getUnioned S g vs u tw = .ok (x, out)) :
    x = unioned S g (names g.dims) u ∧ out.length = vs.length ∧
      ∀ (k : Nat) (v : Var), vs[k]? = some v → ∃ r, out[k]? = some r ∧
        (v.name ∉ tw → r = v) ∧
        (v.name ∈ tw → others g v = [] → ∃ nd', (nd' = [u] ∨ 2 ≤ nd'.length) ∧ averageFlatVar S g nd' v = .ok r) ∧
        (v.name ∈ tw → others g v ≠ [] → averageIter S g u v = .ok r) := by
  unfold getUnioned at h
  cases hr : averageAll S g u tw (newDims g.dims (names g.dims) u) vs with
  | error e => rw [hr] at h; cases h
  | ok r =>
    rw [hr] at h
    simp only [bind, Except.bind, Except.ok.injEq, Prod.mk.injEq] at h
    obtain ⟨rfl, rfl⟩ := h
    obtain ⟨h1, h2⟩ := averageAll_get vs _ _ hr (Or.inl (newDims_geom g u))
    exact ⟨rfl, h1, h2⟩

/-! ### When it succeeds -/

theorem indices_length (ns : List Nat) : (indices ns).length = ns.prod := by
  induction ns with
  | nil => rfl
  | cons n ns ih =>
    simp only [indices, List.length_flatMap, List.length_map, ih, List.prod_cons]
    simp

theorem prod_pos' (ns : List Nat) (h : ∀ n ∈ ns, 0 < n) : 0 < ns.prod := by
  induction ns with
  | nil => simp
  | cons n ns ih =>
    rw [List.prod_cons]
    exact Nat.mul_pos (h n (List.mem_cons_self ..)) (ih fun m hm => h m (List.mem_cons_of_mem _ hm))

theorem flat_dims_le {G : Type} {g : GVar G} {v : Var} (hf : Fits g v) (hpos : ∀ d ∈ g.dims, 0 < d.size)
    (ho : others g v = []) : (sizes v.dims).prod ≤ (sizes g.dims).prod := by
  have hsub : v.dims ⊆ g.dims := by
    intro d hd
    have : d.name ∈ g.dims.map (·.name) := by
      unfold others at ho
      rw [List.filter_eq_nil_iff] at ho
      have := ho d hd
      simpa using this
    obtain ⟨e, he, hn⟩ := List.mem_map.1 this
    rw [hf.same d hd e he hn.symm]
    exact he
  obtain ⟨l, hl, hs⟩ := List.subperm_of_subset (List.Pairwise.of_map _ (fun _ _ h e => h (congrArg _ e)) hf.names) hsub
  obtain ⟨r, hr⟩ := hs.exists_perm_append
  have h1 : (sizes v.dims).prod = (sizes l).prod := ((hl.map _).prod_eq).symm
  have h2 : (sizes g.dims).prod = (sizes (l ++ r)).prod := (hr.map _).prod_eq
  rw [h1, h2]
  unfold sizes
  rw [List.map_append, List.prod_append]
  refine Nat.le_mul_of_pos_right _ (prod_pos' _ ?_)
  intro n hn
  obtain ⟨d, hd, rfl⟩ := List.mem_map.1 hn
  exact hpos d (hr.symm.subset (List.mem_append_right _ hd))

theorem averageFlatVar_ok_iff {G : Type} {S : Shapely G} {g : GVar G} {v : Var} {nd : List Dim} (hf : Fits g v)
    (hpos : ∀ d ∈ g.dims, 0 < d.size) (ho : others g v = []) :
    (∃ r, averageFlatVar S g nd v = .ok r) ↔ sizes nd = [1] := by
  have hlen : ¬ ((indices (sizes g.dims)).map (weights S g).elem).length <
      ((indices v.value.shape).map (maskedValue v).elem).length := by
    rw [List.length_map, List.length_map, indices_length, indices_length, hf.shape]
    exact Nat.not_lt.2 (flat_dims_le hf hpos ho)
  simp only [averageFlatVar]
  rw [if_neg hlen]
  by_cases hn : sizes nd = [1]
  · simp [hn]
  · simp [hn]

/-- Named variables can be averaged one after the other: `first` tells that none with other dimensions has been met. -/
def Averageable {G : Type} (g : GVar G) (tw : List String) : Bool → List Var → Prop
  | _, [] => True
  | first, v :: vs =>
    if v.name ∈ tw then
      if others g v = [] then first = true ∧ Averageable g tw first vs
      else names (spatialDims g.dims v.dims) = names g.dims ∧ Averageable g tw false vs
    else Averageable g tw first vs

theorem averageAll_ok_iff {G : Type} {S : Shapely G} (hS : ∀ g, 0 ≤ S.area g) {g : GVar G} {u : Dim} (hu : u.size = 1)
    {tw : List String} (hpos : ∀ d ∈ g.dims, 0 < d.size) (vs : List Var) (hf : ∀ v ∈ vs, Fits g v) :
    ∀ (nd : List Dim) (first : Bool), (first = true → nd = [u]) → (first = false → 2 ≤ nd.length) →
      ((∃ out, averageAll S g u tw nd vs = .ok out) ↔ Averageable g tw first vs) := by
  induction vs with
  | nil => intro nd first _ _; exact ⟨fun _ => trivial, fun _ => ⟨[], rfl⟩⟩
  | cons v vs ih =>
    intro nd first h1 h2
    have hfv := hf v (List.mem_cons_self ..)
    have ih' := ih fun w hw => hf w (List.mem_cons_of_mem _ hw)
    have hsz : sizes nd = [1] ↔ first = true := by
      cases first with
      | true => rw [h1 rfl]; simp [sizes, hu]
      | false =>
        have := h2 rfl
        simp only [Bool.false_eq_true, iff_false]
        intro h
        have := congrArg List.length h
        simp only [sizes, List.length_map, List.length_cons, List.length_nil] at this
        omega
    simp only [averageAll, Averageable]
    by_cases hmem : v.name ∈ tw
    · have hc : tw.contains v.name = true := by simpa using hmem
      rw [if_pos hc, if_pos hmem]
      by_cases ho : others g v = []
      · have hi : (iterDims g.dims v.dims).isEmpty = true := by rw [← others_eq, ho]; rfl
        rw [if_pos hi, if_pos ho, ← hsz, ← averageFlatVar_ok_iff (S := S) hfv hpos ho, ← ih' nd first h1 h2]
        cases averageFlatVar S g nd v with
        | error e => simp [bind, Except.bind]
        | ok x =>
          cases averageAll S g u tw nd vs with
          | error e => simp [bind, Except.bind]
          | ok r => simp [bind, Except.bind]
      · have hi : ¬ (iterDims g.dims v.dims).isEmpty = true := by rw [← others_eq]; simpa using ho
        have hl : 2 ≤ (newDims v.dims (names g.dims) u).length := by
          rw [newDims_eq, List.length_append]
          have := List.length_pos_of_ne_nil ho
          simp only [List.length_cons, List.length_nil]
          omega
        rw [if_neg hi, if_neg ho, ← averageIter_ok_iff hS (u := u) hfv,
          ← ih' (newDims v.dims (names g.dims) u) false (fun h => by cases h) (fun _ => hl)]
        cases averageIter S g u v with
        | error e => simp [bind, Except.bind]
        | ok x =>
          cases averageAll S g u tw (newDims v.dims (names g.dims) u) vs with
          | error e => simp [bind, Except.bind]
          | ok r => simp [bind, Except.bind]
    · have hc : ¬ tw.contains v.name = true := by simpa using hmem
      rw [if_neg hc, if_neg hmem, ← ih' nd first h1 h2]
      cases averageAll S g u tw nd vs with
      | error e => simp [bind, Except.bind]
      | ok r => simp [bind, Except.bind]

theorem averageable_iff {G : Type} (g : GVar G) (tw : List String) (vs : List Var) :
    ∀ first : Bool, Averageable g tw first vs ↔
      (∀ v ∈ vs, v.name ∈ tw → others g v ≠ [] → names (spatialDims g.dims v.dims) = names g.dims) ∧
      (∀ (k : Nat) (v : Var), vs[k]? = some v → v.name ∈ tw → others g v = [] →
        first = true ∧ ∀ (j : Nat) (w : Var), j < k → vs[j]? = some w → w.name ∈ tw → others g w = []) := by
  induction vs with
  | nil => intro first; simp [Averageable]
  | cons v vs ih =>
    intro first
    simp only [Averageable]
    by_cases hmem : v.name ∈ tw
    · rw [if_pos hmem]
      by_cases ho : others g v = []
      · rw [if_pos ho, ih first]
        constructor
        · rintro ⟨hf, h1, h2⟩
          refine ⟨?_, ?_⟩
          · intro w hw hn hne
            rcases List.mem_cons.1 hw with rfl | hw
            · exact absurd ho hne
            · exact h1 w hw hn hne
          · intro k w hk hn hw
            refine ⟨hf, ?_⟩
            intro j x hj hx hxn
            cases j with
            | zero =>
              simp only [List.getElem?_cons_zero, Option.some.injEq] at hx
              subst hx; exact ho
            | succ j =>
              cases k with
              | zero => omega
              | succ k =>
                simp only [List.getElem?_cons_succ] at hk hx
                exact (h2 k w hk hn hw).2 j x (by omega) hx hxn
        · rintro ⟨h1, h2⟩
          refine ⟨(h2 0 v rfl hmem ho).1, fun w hw => h1 w (List.mem_cons_of_mem _ hw), ?_⟩
          intro k w hk hn hw
          have := h2 (k + 1) w (by simpa using hk) hn hw
          exact ⟨this.1, fun j x hj hx hxn => this.2 (j + 1) x (by omega) (by simpa using hx) hxn⟩
      · rw [if_neg ho, ih false]
        constructor
        · rintro ⟨hs, h1, h2⟩
          refine ⟨?_, ?_⟩
          · intro w hw hn hne
            rcases List.mem_cons.1 hw with rfl | hw
            · exact hs
            · exact h1 w hw hn hne
          · intro k w hk hn hw
            cases k with
            | zero =>
              simp only [List.getElem?_cons_zero, Option.some.injEq] at hk
              subst hk; exact absurd hw ho
            | succ k =>
              simp only [List.getElem?_cons_succ] at hk
              exact absurd (h2 k w hk hn hw).1 (by simp)
        · rintro ⟨h1, h2⟩
          refine ⟨h1 v (List.mem_cons_self ..) hmem ho, fun w hw => h1 w (List.mem_cons_of_mem _ hw), ?_⟩
          intro k w hk hn hw
          have := (h2 (k + 1) w (by simpa using hk) hn hw).2 0 v (by omega) rfl hmem
          exact absurd this ho
    · rw [if_neg hmem, ih first]
      constructor
      · rintro ⟨h1, h2⟩
        refine ⟨?_, ?_⟩
        · intro w hw hn hne
          rcases List.mem_cons.1 hw with rfl | hw
          · exact absurd hn hmem
          · exact h1 w hw hn hne
        · intro k w hk hn hw
          cases k with
          | zero =>
            simp only [List.getElem?_cons_zero, Option.some.injEq] at hk
            subst hk; exact absurd hn hmem
          | succ k =>
            simp only [List.getElem?_cons_succ] at hk
            have := h2 k w hk hn hw
            refine ⟨this.1, ?_⟩
            intro j x hj hx hxn
            cases j with
            | zero =>
              simp only [List.getElem?_cons_zero, Option.some.injEq] at hx
              subst hx; exact absurd hxn hmem
            | succ j =>
              simp only [List.getElem?_cons_succ] at hx
              exact this.2 j x (by omega) hx hxn
      · rintro ⟨h1, h2⟩
        refine ⟨fun w hw => h1 w (List.mem_cons_of_mem _ hw), ?_⟩
        intro k w hk hn hw
        have := h2 (k + 1) w (by simpa using hk) hn hw
        exact ⟨this.1, fun j x hj hx hxn => this.2 (j + 1) x (by omega) (by simpa using hx) hxn⟩

theorem getUnioned_ok_iff {G : Type} {S : Shapely G} {g : GVar G} {vs : List Var} {u : Dim} {tw : List String} :
    (∃ x, getUnioned S g vs u tw = .ok x) ↔ ∃ out, averageAll S g u tw [u] vs = .ok out := by
  unfold getUnioned
  rw [newDims_geom]
  cases averageAll S g u tw [u] vs with
  | error e => simp [bind, Except.bind]
  | ok r => simp [bind, Except.bind]

/-! ### The union -/

theorem find_size (ds : List Dim) (hnd : (ds.map (·.name)).Nodup) :
    ((names ds).map fun n => ((ds.find? fun d => d.name == n).map (·.size)).getD 0) = sizes ds := by
  unfold names sizes
  rw [List.map_map]
  apply List.map_congr_left
  intro d hd
  simp only [Function.comp_apply]
  have : ds.find? (fun e => e.name == d.name) = some d := by
    induction ds with
    | nil => cases hd
    | cons e ds ih =>
      simp only [List.map_cons, List.nodup_cons] at hnd
      rcases List.mem_cons.1 hd with rfl | hd
      · simp
      · have hne : (e.name == d.name) = false := by
          simp only [beq_eq_false_iff_ne]
          intro h
          exact hnd.1 (h ▸ List.mem_map_of_mem hd)
        rw [List.find?_cons, hne]
        exact ih hnd.2 hd
  rw [this]
  rfl

theorem firstAt_spot {G : Type} (g : GVar G) (c : String → Nat) :
    firstAt g (names g.dims) (spot g.dims c) = spot g.dims c := by
  unfold firstAt
  apply List.map_congr_left
  intro d hd
  have hc : (names g.dims).contains d.name = true := by
    simpa [names] using ⟨d, hd, rfl⟩
  rw [if_pos hc]
  exact getD_spot_idxOf g.dims c hd

theorem toUnion_mem {G : Type} (S : Shapely G) (g : GVar G) (hnd : (g.dims.map (·.name)).Nodup) (dst : List Nat) (q : G) :
    q ∈ toUnion S g (names g.dims) dst ↔
      ∃ c ∈ places g.dims, g.masked (spot g.dims c) = false ∧ q ∈ S.parts (g.geom (spot g.dims c)) := by
  unfold toUnion
  simp only [find_size g.dims hnd]
  rw [← places_spot g.dims hnd, List.map_map, List.mem_flatMap]
  constructor
  · rintro ⟨i, hi, hq⟩
    obtain ⟨h1, h2⟩ := List.mem_filter.1 hi
    obtain ⟨c, hc, rfl⟩ := List.mem_map.1 h1
    simp only [Function.comp_apply, firstAt_spot] at h2 hq
    exact ⟨c, hc, by simpa using h2, hq⟩
  · rintro ⟨c, hc, hm, hq⟩
    refine ⟨spot g.dims c, List.mem_filter.2 ⟨List.mem_map.2 ⟨c, hc, ?_⟩, by simp [hm]⟩, hq⟩
    simp only [Function.comp_apply, firstAt_spot]

theorem union_points {G P : Type} {S : Shapely G} {inside : G → P → Prop} (L : Lawful S inside) (g : GVar G)
    (hnd : (g.dims.map (·.name)).Nodup) (dst : List Nat) (p : P) :
    inside (S.union (toUnion S g (names g.dims) dst)) p ↔
      ∃ c ∈ places g.dims, g.masked (spot g.dims c) = false ∧ inside (g.geom (spot g.dims c)) p := by
  rw [L.union]
  constructor
  · rintro ⟨q, hq, hp⟩
    obtain ⟨c, hc, hm, hq'⟩ := (toUnion_mem S g hnd dst q).1 hq
    exact ⟨c, hc, hm, (L.parts _ _).2 ⟨q, hq', hp⟩⟩
  · rintro ⟨c, hc, hm, hp⟩
    obtain ⟨q, hq, hqp⟩ := (L.parts _ _).1 hp
    exact ⟨q, (toUnion_mem S g hnd dst q).2 ⟨c, hc, hm, hq⟩, hqp⟩

/-! ### Several processes -/

theorem foldl_mul_eq (ns : List Nat) : ns.foldl (· * ·) 1 = ns.prod := (List.prod_eq_foldl ..).symm

theorem rankWeight_pos {G : Type} {S : Shapely G} (hS : ∀ g, 0 ≤ S.area g) (own : G) (r : Rank G)
    (hpos : ∀ d ∈ r.geoms.dims, 0 < d.size) : 0 < rankWeight S own r := by
  unfold rankWeight
  split
  · rw [foldl_mul_eq]
    have := prod_pos' (sizes r.geoms.dims) fun n hn => by
      obtain ⟨d, hd, rfl⟩ := List.mem_map.1 hn
      exact hpos d hd
    exact_mod_cast this
  · rename_i h
    exact lt_of_le_of_ne (hS own) (Ne.symm h)

theorem relative_pos {ws : List Rat} (h : ∀ w ∈ ws, 0 < w) : ∀ w ∈ relative ws, 0 < w := by
  intro w hw
  obtain ⟨x, hx, rfl⟩ := List.mem_map.1 hw
  obtain ⟨m, hm, he⟩ := maxOf_mem (List.ne_nil_of_mem hx)
  rw [he]
  exact div_pos (h x hx) (h m hm)

theorem rankWeights_pos {G : Type} {S : Shapely G} (hS : ∀ g, 0 ≤ S.area g) (rs : List (Rank G))
    (hpos : ∀ r ∈ rs, ∀ d ∈ r.geoms.dims, 0 < d.size) :
    (rankWeights S rs).length = rs.length ∧ ∀ w ∈ rankWeights S rs, 0 < w := by
  cases rs with
  | nil => exact ⟨rfl, fun w hw => by cases hw⟩
  | cons r rs =>
    refine ⟨by simp [rankWeights], ?_⟩
    intro w hw
    simp only [rankWeights, List.mem_cons, List.mem_map] at hw
    rcases hw with rfl | ⟨x, hx, rfl⟩
    · exact rankWeight_pos hS _ _ (hpos r (List.mem_cons_self ..))
    · exact rankWeight_pos hS _ _ (hpos x (List.mem_cons_of_mem _ hx))

theorem take_length {α : Type} (l : List α) {s : List Nat} (h : s.Perm (List.range l.length)) :
    (take l s).length = l.length := (take_perm l h).length_eq

theorem both_some (xs ws : List Rat) (hl : xs.length = ws.length) :
    averageFlat (xs.map some) (ws.map some) = if xs.isEmpty then none else some (wmean (ws.zip xs)) := by
  have h1 : xs.map some = ((xs.zip ws).map fun a => (some a.1, some a.2)).map (·.1) := by
    rw [List.map_map]
    have := List.map_fst_zip (l₁ := xs) (l₂ := ws) (by omega)
    conv_lhs => rw [← this]
    rw [List.map_map]
    rfl
  have h2 : ws.map some = ((xs.zip ws).map fun a => (some a.1, some a.2)).map (·.2) := by
    rw [List.map_map]
    have := List.map_snd_zip (l₁ := xs) (l₂ := ws) (by omega)
    conv_lhs => rw [← this]
    rw [List.map_map]
    rfl
  have h3 : both ((xs.zip ws).map fun a => (some a.1, some a.2)) = ws.zip xs := by
    unfold both
    rw [List.filterMap_map]
    clear h1 h2
    induction xs generalizing ws with
    | nil => cases ws <;> simp_all
    | cons x xs ih =>
      cases ws with
      | nil => simp at hl
      | cons w ws => simpa using ih ws (by simpa using hl)
  rw [h1, h2, averageFlat_eq, h3]
  cases xs with
  | nil => simp
  | cons x xs =>
    cases ws with
    | nil => simp at hl
    | cons w ws => rfl

theorem combineOne_between {ws xs : List Rat} (hl : ws.length = xs.length) (hne : xs ≠ []) (hw : ∀ w ∈ ws, 0 < w)
    (lo hi : Rat) (hx : ∀ x ∈ xs, lo ≤ x ∧ x ≤ hi) :
    lo ≤ (combineOne ws xs).1 ∧ (combineOne ws xs).1 ≤ hi := by
  have hs : (argsort (xs.map some)).Perm (List.range xs.length) := by
    have := argsort_perm (xs.map some)
    rwa [List.length_map] at this
  have hpx := take_perm xs hs
  have hpw : (take ws (argsort (xs.map some))).Perm ws := take_perm ws (hl ▸ hs)
  unfold combineOne
  simp only
  rw [both_some _ _ (by rw [hpx.length_eq, hpw.length_eq, hl])]
  have hne' : take xs (argsort (xs.map some)) ≠ [] := by
    intro h
    rw [h] at hpx
    exact hne hpx.nil_eq.symm
  rw [if_neg (by simpa using hne')]
  apply wmean_between
  · intro h
    have := congrArg List.length h
    rw [List.length_zip, hpx.length_eq, hpw.length_eq, hl, Nat.min_self] at this
    exact hne (List.eq_nil_of_length_eq_zero this)
  · rintro ⟨w, x⟩ ha
    obtain ⟨h1, h2⟩ := List.of_mem_zip ha
    exact ⟨hw w (hpw.subset h1), hx x (hpx.subset h2)⟩

theorem combineOne_weights {ws xs : List Rat} (hl : ws.length = xs.length) : (combineOne ws xs).2.Perm ws := by
  have hs : (argsort (xs.map some)).Perm (List.range xs.length) := by
    have := argsort_perm (xs.map some)
    rwa [List.length_map] at this
  exact take_perm ws (hl ▸ hs)

theorem combineSteps_spec {n : Nat} (steps : List (List Rat)) : ∀ (ws : List Rat), ws.length = n → (∀ w ∈ ws, 0 < w) →
    (∀ xs ∈ steps, xs.length = n) →
    (combineSteps ws steps).2.Perm ws ∧ (combineSteps ws steps).1.length = steps.length ∧
      ∀ (k : Nat) (xs : List Rat), steps[k]? = some xs → ∃ ws', ws'.Perm ws ∧
        (combineSteps ws steps).1[k]? = some (combineOne ws' xs).1 := by
  induction steps with
  | nil => intro ws _ _ _; exact ⟨List.Perm.refl _, rfl, fun k xs h => by simp at h⟩
  | cons xs steps ih =>
    intro ws hl hw hs
    have hp := combineOne_weights (ws := ws) (xs := xs) (by rw [hl, hs xs (List.mem_cons_self ..)])
    obtain ⟨h1, h2, h3⟩ := ih (combineOne ws xs).2 (by rw [hp.length_eq, hl]) (fun w hw' => hw w (hp.subset hw'))
      fun y hy => hs y (List.mem_cons_of_mem _ hy)
    refine ⟨h1.trans hp, by simp [combineSteps, h2], ?_⟩
    intro k ys hk
    cases k with
    | zero =>
      simp only [List.getElem?_cons_zero, Option.some.injEq] at hk
      subst hk
      exact ⟨ws, List.Perm.refl _, rfl⟩
    | succ k =>
      simp only [List.getElem?_cons_succ] at hk
      obtain ⟨ws', hp', he⟩ := h3 k ys hk
      exact ⟨ws', hp'.trans hp, by simpa [combineSteps] using he⟩

theorem combineVar_spec {n : Nat} {ws : List Rat} (hl : ws.length = n) (hw : ∀ w ∈ ws, 0 < w) (v : Var)
    (there : List Var) (ht : there.length = n) :
    (combineVar ws v there).2.Perm ws ∧ (combineVar ws v there).1.dims = v.dims ∧
      (combineVar ws v there).1.name = v.name ∧ (combineVar ws v there).1.mask = v.mask ∧
      ∀ i ∈ stepIndices v, ∃ ws', ws'.Perm ws ∧
        (combineVar ws v there).1.value.elem i = (combineOne ws' (there.map fun o => o.value.elem i)).1 := by
  obtain ⟨h1, h2, h3⟩ := combineSteps_spec (n := n) ((stepIndices v).map fun i => there.map fun o => o.value.elem i) ws
    hl hw (by
      intro xs hxs
      obtain ⟨i, _, rfl⟩ := List.mem_map.1 hxs
      simp [ht])
  refine ⟨h1, rfl, rfl, rfl, ?_⟩
  intro i hi
  have hlt : (stepIndices v).idxOf i < (stepIndices v).length := List.idxOf_lt_length_iff.2 hi
  obtain ⟨ws', hp, he⟩ := h3 ((stepIndices v).idxOf i) (there.map fun o => o.value.elem i) (by
    rw [List.getElem?_map, List.getElem?_eq_getElem hlt, Option.map_some, List.getElem_idxOf])
  refine ⟨ws', hp, ?_⟩
  show (combineSteps ws ((stepIndices v).map fun i => there.map fun o => o.value.elem i)).1.getD _ 0 = _
  rw [List.getD_eq_getElem?_getD, he, Option.getD_some]

theorem combineAll_spec {n : Nat} (tw : List String) (vs : List Var) : ∀ (ws : List Rat) (columns : List (List Var)),
    ws.length = n → (∀ w ∈ ws, 0 < w) → columns.length = vs.length → (∀ c ∈ columns, c.length = n) →
    ∀ (k : Nat) (v : Var) (there : List Var), vs[k]? = some v → columns[k]? = some there →
      ∃ r, (combineAll tw ws vs columns)[k]? = some r ∧ r.dims = v.dims ∧ r.name = v.name ∧ r.mask = v.mask ∧
        (v.name ∉ tw → r = v) ∧
        (v.name ∈ tw → ∀ i ∈ stepIndices v, ∃ ws', ws'.Perm ws ∧
          r.value.elem i = (combineOne ws' (there.map fun o => o.value.elem i)).1) := by
  induction vs with
  | nil => intro ws columns _ _ _ _ k v there h; simp at h
  | cons v vs ih =>
    intro ws columns hl hw hc hcn k x there hk hck
    cases columns with
    | nil => simp at hc
    | cons c cs =>
      have hcs : cs.length = vs.length := by simpa using hc
      have hcn' : ∀ d ∈ cs, d.length = n := fun d hd => hcn d (List.mem_cons_of_mem _ hd)
      simp only [combineAll, List.head?_cons, Option.getD_some, List.tail_cons]
      by_cases hm : v.name ∈ tw
      · rw [if_pos (by simpa using hm)]
        obtain ⟨p1, p2, p3, p4, p5⟩ := combineVar_spec hl hw v c (hcn c (List.mem_cons_self ..))
        cases k with
        | zero =>
          simp only [List.getElem?_cons_zero, Option.some.injEq] at hk hck
          subst hk; subst hck
          exact ⟨_, rfl, p2, p3, p4, fun h => absurd hm h, fun _ => p5⟩
        | succ k =>
          simp only [List.getElem?_cons_succ] at hk hck
          obtain ⟨r, q1, q2, q3, q4, q5, q6⟩ := ih (combineVar ws v c).2 cs (by rw [p1.length_eq, hl])
            (fun w hw' => hw w (p1.subset hw')) hcs hcn' k x there hk hck
          refine ⟨r, by simpa using q1, q2, q3, q4, q5, ?_⟩
          intro hx i hi
          obtain ⟨ws', hp, he⟩ := q6 hx i hi
          exact ⟨ws', hp.trans p1, he⟩
      · rw [if_neg (by simpa using hm)]
        cases k with
        | zero =>
          simp only [List.getElem?_cons_zero, Option.some.injEq] at hk
          subst hk
          exact ⟨_, rfl, rfl, rfl, rfl, fun _ => rfl, fun h => absurd h hm⟩
        | succ k =>
          simp only [List.getElem?_cons_succ] at hk hck
          obtain ⟨r, q1, q⟩ := ih ws cs hl hw hcs hcn' k x there hk hck
          exact ⟨r, by simpa using q1, q⟩

theorem mapM_all {α β : Type} {f : α → Res β} {l : List α} {r : List β} (h : l.mapM f = .ok r) :
    r.length = l.length ∧ ∀ (k : Nat) (x : α), l[k]? = some x → ∃ y, r[k]? = some y ∧ f x = .ok y := by
  induction l generalizing r with
  | nil =>
    simp only [List.mapM_nil, pure, Except.pure, Except.ok.injEq] at h
    subst h
    exact ⟨rfl, fun k x hk => by simp at hk⟩
  | cons a l ih =>
    rw [List.mapM_cons] at h
    cases ha : f a with
    | error e => rw [ha] at h; cases h
    | ok y =>
      cases hr : l.mapM f with
      | error e => rw [ha, hr] at h; cases h
      | ok ys =>
        rw [ha, hr] at h
        simp only [bind, Except.bind, pure, Except.pure, Except.ok.injEq] at h
        subst h
        obtain ⟨h1, h2⟩ := ih hr
        refine ⟨by simp [h1], ?_⟩
        intro k x hk
        cases k with
        | zero =>
          simp only [List.getElem?_cons_zero, Option.some.injEq] at hk
          subst hk
          exact ⟨y, rfl, ha⟩
        | succ k =>
          simp only [List.getElem?_cons_succ] at hk ⊢
          exact h2 k x hk

theorem column_of {ls : List (List Var)} {n k : Nat} (hk : k < n) (hl : ∀ l ∈ ls, l.length = n) :
    ∃ c, (columnsOf n ls)[k]? = some c ∧ c.length = ls.length ∧ ∀ o ∈ c, ∃ l ∈ ls, l[k]? = some o := by
  refine ⟨ls.filterMap fun l => l[k]?, ?_, ?_, ?_⟩
  · simp [columnsOf, hk]
  · induction ls with
    | nil => rfl
    | cons l ls ih =>
      have h1 := hl l (List.mem_cons_self ..)
      rw [List.filterMap_cons, List.getElem?_eq_getElem (h1.symm ▸ hk)]
      simp [ih fun x hx => hl x (List.mem_cons_of_mem _ hx)]
  · intro o ho
    obtain ⟨l, h1, h2⟩ := List.mem_filterMap.1 ho
    exact ⟨l, h1, h2⟩

end Ocgis.Average
