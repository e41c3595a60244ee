import Verif.Proofs.Regrid
/-!
# C84: regridding
-/
namespace Ocgis.Props
open Ocgis Ocgis.Regrid Ocgis.Coords Ocgis.Spec

/-! ### Theorems -/

/-- **C84 (partial).** What the values of a regridded field are, when everything is stored with latitude before longitude: each is the sum of the values of the same slice of the same variable in the cells ESMF names, with ESMF's weights for
the source and destination grids; cells ESMF does not map have the fill value.  The source grid ESMF sees has the
centres of the field's grid, and its usable cells are those hidden neither by the spatial mask nor by the first slice of
the first variable; the destination grid is that of the destination.  The method is the one asked for; `auto` is
conservative when both grids have bounds. -/
theorem C84_values_partial (E : Regrid.Ext) (src : Regrid.Field) (dst : Regrid.Grid) (ds : Bool) (o : Options)
    (outs : List Out) (hl : LatFirst src dst) (h0 : 0 < src.slices) (hm : o.valueMask = none)
    (h : regridField E src dst ds o = .ok outs) :
    ∃ m es ed, m = chosen o.method src.grid.cells.isSome dst.cells.isSome ∧
      EsmfOf src.grid (fun j i => firstMask src j i || hides src.grid.hidden j i) es ∧
      EsmfOf dst (hides dst.hidden) ed ∧ outs.length = src.vars.length ∧
      ∀ (n : Nat) (v : Regrid.Var) (out : Out), src.vars[n]? = some v → outs[n]? = some out →
        out.name = v.name ∧ ∀ k j i, out.data k j i =
          match E.weights m es ed i j with
          | none => o.fillValue.getD v.fill
          | some ws => weightedSum ws (v.data k) := by
  obtain ⟨hf, hg, hd⟩ : src.yx = true ∧ src.grid.rowsFirst = true ∧ dst.rowsFirst = true := hl
  obtain ⟨es, ed, _, hes, hed, _, _, hr⟩ := regridField_inv h
  rw [hm] at hes hed
  obtain ⟨hlen, hv⟩ := regridVars_spec hr
  refine ⟨resolve o.method es ed, es, ed, resolve_chosen hes hed, sourceGrid hf hg h0 hes, ?_, hlen, ?_⟩
  · obtain ⟨u, c, hu, _, _, _, rfl⟩ := createEsmfGrid_inv hed
    exact ⟨rfl, rfl, fun _ _ _ _ => by simp [stored, hd], fun _ _ _ _ => by simp [stored, hd], fun j i _ _ => esmfUsable_none hu j i⟩
  · intro n v out h1 h2
    obtain ⟨h3, h4⟩ := regridVar_inv hf (hv n v out h1 h2)
    exact ⟨h3, fun k j i => (h4 k j i).1⟩

/-- **C84 (partial).** With a mask given by the user, it replaces the mask of the first variable: the cells of the source grid ESMF may use are
those hidden neither by it nor by the spatial mask.  The same holds of the destination, which is missing in the claim
(`C84_value_mask_counterexample`); both grids have the shape of the mask. -/
theorem C84_given_mask_partial (E : Regrid.Ext) (src : Regrid.Field) (dst : Regrid.Grid) (ds : Bool) (o : Options)
    (outs : List Out) (hl : LatFirst src dst) (g : MaskArr) (hm : o.valueMask = some g) (h : regridField E src dst ds o = .ok outs) :
    (g.rows, g.cols) = (src.grid.ny, src.grid.nx) ∧ (g.rows, g.cols) = (dst.ny, dst.nx) ∧
    ∃ m es ed, m = chosen o.method src.grid.cells.isSome dst.cells.isSome ∧
      EsmfOf src.grid (fun j i => g.get j i || hides src.grid.hidden j i) es ∧
      EsmfOf dst (fun j i => g.get j i || hides dst.hidden j i) ed ∧ outs.length = src.vars.length ∧
      ∀ (n : Nat) (v : Regrid.Var) (out : Out), src.vars[n]? = some v → outs[n]? = some out →
        out.name = v.name ∧ ∀ k j i, out.data k j i =
          match E.weights m es ed i j with
          | none => o.fillValue.getD v.fill
          | some ws => weightedSum ws (v.data k) := by
  obtain ⟨hf, hg, hd⟩ : src.yx = true ∧ src.grid.rowsFirst = true ∧ dst.rowsFirst = true := hl
  obtain ⟨es, ed, _, hes, hed, _, _, hr⟩ := regridField_inv h
  rw [hm] at hes hed
  have hsm : sourceMask src (some g) = some g := rfl
  rw [hsm] at hes
  obtain ⟨hlen, hv⟩ := regridVars_spec hr
  have hshape : ∀ {gr : Regrid.Grid} {u}, esmfUsable gr (some g) = .ok u → (g.rows, g.cols) = (gr.ny, gr.nx) := by
    intro gr u hu
    unfold esmfUsable esmfMask at hu
    by_cases hs : (g.rows, g.cols) = (gr.ny, gr.nx)
    · exact hs
    · simp only [if_neg hs] at hu; cases hu
  have hres := resolve_chosen hes hed
  obtain ⟨u, c, hu, _, _, _, he⟩ := createEsmfGrid_inv hes
  obtain ⟨u', c', hu', _, _, _, he'⟩ := createEsmfGrid_inv hed
  refine ⟨hshape hu, hshape hu', _, es, ed, hres, ?_, ?_, hlen, ?_⟩
  · subst he
    exact ⟨rfl, rfl, fun _ _ _ _ => by simp [stored, hg], fun _ _ _ _ => by simp [stored, hg], fun j i _ _ => esmfUsable_some hu j i⟩
  · subst he'
    exact ⟨rfl, rfl, fun _ _ _ _ => by simp [stored, hd], fun _ _ _ _ => by simp [stored, hd], fun j i _ _ => esmfUsable_some hu' j i⟩
  · intro n v out h1 h2
    obtain ⟨h3, h4⟩ := regridVar_inv hf (hv n v out h1 h2)
    exact ⟨h3, fun k j i => (h4 k j i).1⟩

/-- **C84 (partial).** Masked source values do not enter the result, provided all slices of all variables have the same mask and ESMF
respects the masks it is given: changing the values under the mask changes nothing. -/
theorem C84_hidden_partial (E : Regrid.Ext) (hE : RespectsMasks E) (src : Regrid.Field) (dst : Regrid.Grid) (ds : Bool)
    (o : Options) (outs outs' : List Out) (hl : LatFirst src dst) (hm : o.valueMask = none)
    (hid : Nat → Nat → Bool) (hs : SameMasks src hid)
    (vars' : List Regrid.Var) (hlen : vars'.length = src.vars.length)
    (hv : ∀ (n : Nat) (v v' : Regrid.Var), src.vars[n]? = some v → vars'[n]? = some v' →
      v'.name = v.name ∧ v'.fill = v.fill ∧ v'.hidden = v.hidden ∧
        ∀ k j i, k < src.slices → j < src.grid.ny → i < src.grid.nx →
          (hid j i || hides src.grid.hidden j i) = false → v'.data k j i = v.data k j i)
    (h : regridField E src dst ds o = .ok outs) (h' : regridField E { src with vars := vars' } dst ds o = .ok outs') :
    ∀ (n : Nat) (a b : Out), outs[n]? = some a → outs'[n]? = some b → a.name = b.name ∧
      ∀ k j i, k < src.slices → a.data k j i = b.data k j i ∧ a.hidden k j i = b.hidden k j i := by
  obtain ⟨hf, hg, hd⟩ : src.yx = true ∧ src.grid.rowsFirst = true ∧ dst.rowsFirst = true := hl
  obtain ⟨es, ed, _, hes, hed, hne, _, hr⟩ := regridField_inv h
  obtain ⟨es', ed', _, hes', hed', _, _, hr'⟩ := regridField_inv h'
  rw [hm] at hes hed hes' hed'
  intro n a b ha hb
  obtain ⟨hl1, hv1⟩ := regridVars_spec hr
  obtain ⟨hl2, hv2⟩ := regridVars_spec hr'
  have hn : n < src.vars.length := by
    rw [← hl1]; exact (List.getElem?_eq_some_iff.1 ha).1
  have hn' : n < vars'.length := by omega
  have e1 := List.getElem?_eq_getElem hn
  have e2 := List.getElem?_eq_getElem hn'
  have r1 := hv1 n _ a e1 ha
  have r2 := hv2 n _ b e2 hb
  obtain ⟨p1, p2, p3, p4⟩ := hv n _ _ e1 e2
  have hsm : sourceMask { src with vars := vars' } none = sourceMask src none := by
    unfold sourceMask
    cases hsv : src.vars with
    | nil => exact absurd hsv hne
    | cons v vs =>
      cases hvs : vars' with
      | nil => rw [hsv, hvs] at hlen; cases hlen
      | cons v' vs' =>
        have := hv 0 v v' (by rw [hsv]; rfl) (by rw [hvs]; rfl)
        have hah : v'.anyHidden { src with vars := v' :: vs' } = v.anyHidden src := by
          simp only [Regrid.Var.anyHidden, this.2.2.1]
        simp only [hah, this.2.2.1, Regrid.Field.shape]
  have hee : es' = es := by
    have : createEsmfGrid src.grid o.method (sourceMask src none) = .ok es' := by rw [← hsm]; exact hes'
    rw [hes] at this; cases this; rfl
  have hdd : ed' = ed := by rw [hed] at hed'; cases hed'; rfl
  subst hee hdd
  obtain ⟨n1, q1⟩ := regridVar_inv hf r1
  obtain ⟨n2, q2⟩ := regridVar_inv (f := { src with vars := vars' }) hf r2
  refine ⟨by rw [n1, n2, p1], ?_⟩
  intro k j i hk
  have h0 : 0 < src.slices := by omega
  have key : a.data k j i = b.data k j i := by
    rw [(q1 k j i).1, (q2 k j i).1, p2]
    split
    · rfl
    · rename_i ws hw
      apply weightedSum_congr
      intro w hwm
      obtain ⟨b1, b2, b3⟩ := hE.source _ _ _ _ _ ws hw w hwm
      have hG := sourceGrid hf hg h0 hes
      rw [hG.nx] at b1
      rw [hG.ny] at b2
      rw [hG.usable _ _ b2 b1] at b3
      refine (p4 k _ _ hk b2 b1 ?_).symm
      have hfm : firstMask src w.1.2 w.1.1 = hid w.1.2 w.1.1 := by
        unfold firstMask
        cases hsv : src.vars with
        | nil => exact absurd hsv hne
        | cons v vs => exact hs v (by rw [hsv]; exact List.mem_cons_self) 0 h0 _ _ b2 b1
      rw [hfm] at b3
      simpa using b3
  refine ⟨key, ?_⟩
  rw [(q1 k j i).2, (q2 k j i).2, key, p2]

/-- **C84 (partial).** With `split` (the default), for variables with a dimension besides latitude and longitude, cells of the destination that ESMF does not map are
masked, among them those the destination's mask hides; cells that are masked hold the fill value. -/
theorem C84_unmapped_partial (E : Regrid.Ext) (hE : RespectsMasks E) (src : Regrid.Field) (dst : Regrid.Grid) (ds : Bool)
    (o : Options) (outs : List Out) (hl : LatFirst src dst) (h0 : 0 < src.slices) (hm : o.valueMask = none) (hsp : o.split = true)
    (hx : src.extra = true) (h : regridField E src dst ds o = .ok outs) :
    ∃ m es ed, EsmfOf src.grid (fun j i => firstMask src j i || hides src.grid.hidden j i) es ∧
      EsmfOf dst (hides dst.hidden) ed ∧
      ∀ (n : Nat) (v : Regrid.Var) (out : Out), src.vars[n]? = some v → outs[n]? = some out → ∀ k j i,
        (E.weights m es ed i j = none → out.hidden k j i = true) ∧
        (j < dst.ny → i < dst.nx → hides dst.hidden j i = true → out.hidden k j i = true) ∧
        (out.hidden k j i = true ↔ out.data k j i = o.fillValue.getD v.fill) := by
  obtain ⟨hf, hg, hd⟩ : src.yx = true ∧ src.grid.rowsFirst = true ∧ dst.rowsFirst = true := hl
  obtain ⟨es, ed, _, hes, hed, _, _, hr⟩ := regridField_inv h
  rw [hm] at hes hed
  have hD : EsmfOf dst (hides dst.hidden) ed := by
    obtain ⟨u, c, hu, _, _, _, rfl⟩ := createEsmfGrid_inv hed
    exact ⟨rfl, rfl, fun _ _ _ _ => by simp [stored, hd], fun _ _ _ _ => by simp [stored, hd], fun j i _ _ => esmfUsable_none hu j i⟩
  refine ⟨resolve o.method es ed, es, ed, sourceGrid hf hg h0 hes, hD, ?_⟩
  intro n v out h1 h2 k j i
  obtain ⟨_, h4⟩ := regridVar_inv hf ((regridVars_spec hr).2 n v out h1 h2)
  have h5 := (h4 k j i).2
  rw [hsp, hx] at h5
  have h6 : out.hidden k j i = true ↔ out.data k j i = o.fillValue.getD v.fill := by rw [h5]; simp
  have h7 : E.weights (resolve o.method es ed) es ed i j = none → out.hidden k j i = true := by
    intro hw
    rw [h6, (h4 k j i).1, hw]
  refine ⟨h7, fun hj hi hh => h7 (hE.destination _ _ _ _ _ ?_), h6⟩
  rw [hD.usable j i hj hi, hh]; rfl

/-- **C84.** Regridding slice by slice and regridding all slices at once give the same values: whenever the first
succeeds so does the second, with the same values everywhere. -/
theorem C84_split (E : Regrid.Ext) (src : Regrid.Field) (dst : Regrid.Grid) (ds : Bool) (o : Options) (outs : List Out)
    (h0 : 0 < src.slices) (h : regridField E src dst ds { o with split := true } = .ok outs) :
    ∃ outs', regridField E src dst ds { o with split := false } = .ok outs' ∧ outs'.length = outs.length ∧
      ∀ (n : Nat) (a b : Out), outs[n]? = some a → outs'[n]? = some b →
        a.name = b.name ∧ ∀ k j i, a.data k j i = b.data k j i := by
  obtain ⟨es, ed, hc, hes, hed, hne, hsh, hr⟩ := regridField_inv h
  simp only [Bool.true_and] at hr hes hed hc
  have hone : ∀ v a, regridVar E (resolve o.method es ed) src es ed src.extra o.fillValue v = .ok a →
      ∃ b, regridVar E (resolve o.method es ed) src es ed false o.fillValue v = .ok b ∧ a.name = b.name ∧
        ∀ k j i, a.data k j i = b.data k j i := by
    intro v a ha
    cases hx : src.extra with
    | false => rw [hx] at ha; exact ⟨a, ha, rfl, fun _ _ _ => rfl⟩
    | true =>
      rw [hx] at ha
      unfold regridVar at ha ⊢
      simp only at ha ⊢
      split at ha
      · cases ha
      · rename_i hb
        rw [if_neg]
        · cases ha
          exact ⟨_, rfl, rfl, fun _ _ _ => rfl⟩
        · intro hall
          apply hb
          simp only [nothingMapped, ↓reduceIte, Bool.false_eq_true] at hall ⊢
          rw [List.any_eq_true]
          exact ⟨0, List.mem_range.2 h0, List.all_eq_true.1 hall 0 (List.mem_range.2 h0)⟩
  obtain ⟨hl1, hv1⟩ := regridVars_spec hr
  have hall : ∀ v ∈ src.vars, ∃ b, regridVar E (resolve o.method es ed) src es ed false o.fillValue v = .ok b := by
    intro v hv
    obtain ⟨n, hn, hvn⟩ := List.getElem_of_mem hv
    have hn' : n < outs.length := by omega
    obtain ⟨b, hb, _⟩ := hone v _ (hv1 n v _ (by rw [List.getElem?_eq_getElem hn, hvn]) (List.getElem?_eq_getElem hn'))
    exact ⟨b, hb⟩
  obtain ⟨outs', hr'⟩ := regridVars_all hall
  obtain ⟨hl2, hv2⟩ := regridVars_spec hr'
  refine ⟨outs', ?_, by omega, ?_⟩
  · unfold regridField
    simp only [hc, hes, hed, Bool.false_and]
    rw [if_neg hne, if_neg (not_not.2 hsh)]
    exact hr'
  · intro n a b ha hb
    have hn : n < src.vars.length := by rw [← hl1]; exact (List.getElem?_eq_some_iff.1 ha).1
    have e1 := List.getElem?_eq_getElem hn
    obtain ⟨b', hb', hnm, hdt⟩ := hone _ a (hv1 n _ a e1 ha)
    have := hv2 n _ b e1 hb
    rw [hb'] at this
    cases this
    exact ⟨hnm, hdt⟩

/-- **C84.** The resolution of evenly spaced coordinates on one side of zero is their spacing. -/
theorem C84_resolution (a d : Rat) (n : Nat) (hn : 2 ≤ n) (hd : 0 < d)
    (h : 0 ≤ a ∨ a + ((n - 1 : Nat) : Rat) * d ≤ 0) : resolution1 (evenly a d n) = some d :=
  resolution_same a d n hn (le_of_lt hd) h

/-- **C84.** Evenly spaced longitudes all around the globe make a periodic ESMF grid, wherever they begin (from 0, from
-180, or anywhere between -360 and the first step), if there are three or more. -/
theorem C84_global (g : Regrid.Grid) (a d : Rat) (hv : g.vectorized = true) (hn : 3 ≤ g.nx) (hd : 0 < d)
    (hall : (g.nx : Rat) * d = 360) (hx : ∀ i, i < g.nx → g.x 0 i = a + (i : Rat) * d) (h1 : d - 360 ≤ a) (h2 : a < d) :
    g.periodic = true := by
  have hcol : (List.range g.nx).map (g.x 0) = evenly a d g.nx := by
    unfold evenly
    apply List.map_congr_left
    intro i hi
    exact hx i (List.mem_range.1 hi)
  unfold Regrid.Grid.periodic Regrid.Grid.columns Regrid.Grid.resolutionX
  rw [if_pos hv, if_pos hv, hcol]
  simp only [List.flatten_cons, List.flatten_nil, List.append_nil]
  generalize hN : g.nx = n at *
  have hne : evenly a d n ≠ [] := by
    intro h0
    have := congrArg List.length h0
    simp [evenly] at this
    omega
  have ha : a ∈ evenly a d n := mem_evenly.2 ⟨0, by omega, by simp⟩
  have hlast : a + ((n - 1 : Nat) : Rat) * d ∈ evenly a d n := mem_evenly.2 ⟨n - 1, by omega, rfl⟩
  have hl : ((n - 1 : Nat) : Rat) * d = 360 - d := by
    have e : ((n - 1 : Nat) : Rat) = (n : Rat) - 1 := by
      have : ((n - 1 + 1 : Nat) : Rat) = (n : Rat) := by rw [Nat.sub_add_cancel (by omega)]
      push_cast at this; linarith
    rw [e, sub_mul, hall]; ring
  have hmin := minOf_spec hne
  by_cases ha0 : 0 ≤ a
  · rw [resolution_same a d n (by omega) (le_of_lt hd) (Or.inl ha0)]
    have hm0 : 0 ≤ minOf (evenly a d n) := by
      obtain ⟨i, _, hi⟩ := mem_evenly.1 hmin.1
      rw [hi]
      have : 0 ≤ (i : Rat) * d := mul_nonneg (by exact_mod_cast Nat.zero_le i) (le_of_lt hd)
      linarith
    have hm1 := hmin.2 a ha
    have hmax := maxOf_spec hne
    have hM0 := hmax.2 _ hlast
    have hM1 : maxOf (evenly a d n) ≤ a + (360 - d) := by
      obtain ⟨i, hi', hi⟩ := mem_evenly.1 hmax.1
      rw [hi]
      have : (i : Rat) * d ≤ ((n - 1 : Nat) : Rat) * d := mul_mono (le_of_lt hd) (by omega)
      linarith
    simp only [periodic, columnRange]
    rw [if_neg (by linarith)]
    simp only [Bool.and_eq_true, decide_eq_true_eq]
    refine ⟨⟨?_, ?_⟩, ?_, ?_⟩ <;> linarith
  · have ha0 := not_le.1 ha0
    obtain ⟨k, hk, c1, c2⟩ := crossing a d (n - 1) ha0 (by linarith)
    obtain ⟨m, _, m2, _, hr⟩ := resolution1_evenly a d n (by omega)
    have m2 := m2 hn
    rw [hr, crossing_sum a d k hd c1 c2]
    have ek : a + ((k + 1 : Nat) : Rat) * d = (a + (k : Rat) * d) + d := by push_cast; ring
    generalize hc : a + ((k + 1 : Nat) : Rat) * d = c at *
    have hcd : c < d := by linarith
    have hm0 : (0 : Rat) < (m : Rat) := by exact_mod_cast (by omega : 0 < m)
    have hm2 : (2 : Rat) ≤ (m : Rat) := by exact_mod_cast m2
    have hbig : ∀ M : Rat, (M = c ∨ M = d - c) →
        M ≤ (if m ≤ k then (m : Rat) * d else ((m : Rat) - 1) * d + absR (2 * c - d)) / (m : Rat) := by
      intro M hM
      rw [le_div_iff₀ hm0]
      have hMd : M ≤ d := by rcases hM with rfl | rfl <;> linarith
      split
      · rw [mul_comm]
        exact mul_le_mul_of_nonneg_left hMd (le_of_lt hm0)
      · have hab : 2 * M - d ≤ absR (2 * c - d) := by
          unfold absR
          rcases hM with rfl | rfl <;> split <;> linarith
        have := mul_le_mul_of_nonneg_left hMd (by linarith : (0 : Rat) ≤ (m : Rat) - 2)
        nlinarith
    have b1 := hbig c (Or.inl rfl)
    have b2 := hbig (d - c) (Or.inr rfl)
    generalize (if m ≤ k then (m : Rat) * d else ((m : Rat) - 1) * d + absR (2 * c - d)) / (m : Rat) = r at *
    have hcm : c ∈ evenly a d n := mem_evenly.2 ⟨k + 1, by omega, hc.symm⟩
    have hcm' : c - d ∈ evenly a d n := mem_evenly.2 ⟨k, by omega, by linarith⟩
    have hneg : (evenly a d n).filter (fun x => decide (x < 0)) ≠ [] :=
      List.ne_nil_of_mem (List.mem_filter.2 ⟨hcm', by simp; linarith⟩)
    have hpos : (evenly a d n).filter (fun x => decide (0 ≤ x)) ≠ [] :=
      List.ne_nil_of_mem (List.mem_filter.2 ⟨hcm, by simp; linarith⟩)
    simp only [periodic, columnRange]
    rw [if_pos (lt_of_le_of_lt (hmin.2 a ha) ha0), if_neg hneg, if_neg hpos]
    have p := minOf_spec hpos
    have q := maxOf_spec hneg
    have p1 := (List.mem_filter.1 p.1).2
    have q1 := (List.mem_filter.1 q.1).2
    have p2 := p.2 c (List.mem_filter.2 ⟨hcm, by simp; linarith⟩)
    have q2 := q.2 (c - d) (List.mem_filter.2 ⟨hcm', by simp; linarith⟩)
    simp only [decide_eq_true_eq] at p1 q1
    simp only [Bool.and_eq_true, decide_eq_true_eq]
    refine ⟨⟨?_, ?_⟩, ?_, ?_⟩ <;> linarith

/-- **C84.** Evenly spaced longitudes from 0 on make a periodic ESMF grid exactly when the first is within one step of 0
and the last within one step of 360. -/
theorem C84_east (g : Regrid.Grid) (a d : Rat) (hv : g.vectorized = true) (hn : 2 ≤ g.nx) (hd : 0 < d)
    (hx : ∀ i, i < g.nx → g.x 0 i = a + (i : Rat) * d) (ha : 0 ≤ a) :
    g.periodic = true ↔ a ≤ d ∧ 360 - d ≤ a + ((g.nx - 1 : Nat) : Rat) * d ∧ a + ((g.nx - 1 : Nat) : Rat) * d ≤ 360 + d := by
  have hcol : (List.range g.nx).map (g.x 0) = evenly a d g.nx := by
    unfold evenly
    apply List.map_congr_left
    intro i hi
    exact hx i (List.mem_range.1 hi)
  unfold Regrid.Grid.periodic Regrid.Grid.columns Regrid.Grid.resolutionX
  rw [if_pos hv, if_pos hv, hcol]
  simp only [List.flatten_cons, List.flatten_nil, List.append_nil]
  generalize hN : g.nx = n at *
  rw [resolution_same a d n hn (le_of_lt hd) (Or.inl ha)]
  have ham : a ∈ evenly a d n := mem_evenly.2 ⟨0, by omega, by simp⟩
  have hlast : a + ((n - 1 : Nat) : Rat) * d ∈ evenly a d n := mem_evenly.2 ⟨n - 1, by omega, rfl⟩
  have hmin := minOf_spec (List.ne_nil_of_mem ham)
  have hmax := maxOf_spec (List.ne_nil_of_mem ham)
  have e1 : minOf (evenly a d n) = a := by
    apply le_antisymm (hmin.2 a ham)
    obtain ⟨i, _, hi⟩ := mem_evenly.1 hmin.1
    rw [hi]
    have : 0 ≤ (i : Rat) * d := mul_nonneg (by exact_mod_cast Nat.zero_le i) (le_of_lt hd)
    linarith
  have e2 : maxOf (evenly a d n) = a + ((n - 1 : Nat) : Rat) * d := by
    apply le_antisymm _ (hmax.2 _ hlast)
    obtain ⟨i, hi', hi⟩ := mem_evenly.1 hmax.1
    rw [hi]
    have : (i : Rat) * d ≤ ((n - 1 : Nat) : Rat) * d := mul_mono (le_of_lt hd) (by omega)
    linarith
  simp only [periodic, columnRange]
  rw [e1, if_neg (by linarith), e2]
  simp only [Bool.and_eq_true, decide_eq_true_eq]
  constructor
  · rintro ⟨⟨_, p2⟩, p3, p4⟩; exact ⟨by linarith, by linarith, by linarith⟩
  · rintro ⟨p1, p2, p3⟩; exact ⟨⟨by linarith, by linarith⟩, by linarith, by linarith⟩

/-- **C84.** Evenly spaced longitudes all west of Greenwich never make a periodic ESMF grid. -/
theorem C84_west (g : Regrid.Grid) (a d : Rat) (hv : g.vectorized = true) (hn : 2 ≤ g.nx) (hd : 0 < d)
    (hx : ∀ i, i < g.nx → g.x 0 i = a + (i : Rat) * d) (ha : a + ((g.nx - 1 : Nat) : Rat) * d < 0) :
    g.periodic = false := by
  have hcol : (List.range g.nx).map (g.x 0) = evenly a d g.nx := by
    unfold evenly
    apply List.map_congr_left
    intro i hi
    exact hx i (List.mem_range.1 hi)
  unfold Regrid.Grid.periodic Regrid.Grid.columns Regrid.Grid.resolutionX
  rw [if_pos hv, if_pos hv, hcol]
  simp only [List.flatten_cons, List.flatten_nil, List.append_nil]
  generalize hN : g.nx = n at *
  rw [resolution_same a d n hn (le_of_lt hd) (Or.inr (le_of_lt ha))]
  have ham : a ∈ evenly a d n := mem_evenly.2 ⟨0, by omega, by simp⟩
  have hmin := (minOf_spec (List.ne_nil_of_mem ham)).2 a ham
  have hall : ∀ x ∈ evenly a d n, x < 0 := by
    intro x hx
    obtain ⟨i, hi', hi⟩ := mem_evenly.1 hx
    have : (i : Rat) * d ≤ ((n - 1 : Nat) : Rat) * d := mul_mono (le_of_lt hd) (by omega)
    linarith
  have ha0 : a + d < 0 := by
    have : ((1 : Nat) : Rat) * d ≤ ((n - 1 : Nat) : Rat) * d := mul_mono (le_of_lt hd) (by omega)
    push_cast at this
    linarith
  have hpos : (evenly a d n).filter (fun x => decide (0 ≤ x)) = [] := by
    rw [List.filter_eq_nil_iff]
    intro x hx
    have := hall x hx
    simp; linarith
  simp only [periodic, columnRange]
  rw [if_pos (by linarith), if_pos hpos]
  simp only [Bool.and_eq_false_iff, decide_eq_false_iff_not]
  left; left
  linarith

/-- **C84 (partial).** The cells ESMF sees have the corners of the grid's cells, up to whole turns, if neighbouring cells share corners
and a grid taken to be periodic really goes around the globe. -/
theorem C84_corners_partial (g : Regrid.Grid) (m : Method) (vm : Option MaskArr) (e : EGrid) (hl : (g.vectorized || g.yx) = true)
    (cs : Nat → Nat → Corners (Rat × Rat)) (hcs : g.cells = some cs) (hm : m = .conserve ∨ m = .auto)
    (hsh : Shared g.ny g.nx cs) (hp : g.periodic = true → Closed g.ny g.nx cs) (h : createEsmfGrid g m vm = .ok e) :
    ∃ c, e.corner = some c ∧ ∀ j i, j < g.ny → i < g.nx → SameCell (e.cell c i j) (cs j i) := by
  have hg : g.rowsFirst = true := hl
  obtain ⟨u, c, _, hc, _, _, rfl⟩ := createEsmfGrid_inv h
  have hst : stored g.rowsFirst cs = cs := by funext a b; simp [stored, hg]
  have hc' : c = some (meshFromCells (0, 0) g.ny g.nx cs) := by
    unfold esmfCorners at hc
    rw [if_pos (by rcases hm with h | h <;> simp [h, hcs]), hcs] at hc
    simp only [hst] at hc
    simp only [Regrid.Grid.shape, hg, ↓reduceIte] at hc
    cases hc; rfl
  subst hc'
  refine ⟨_, rfl, fun j i hj hi => ?_⟩
  have hrefl : ∀ p : Rat × Rat, SamePlace p p := fun p => ⟨rfl, 0, by simp⟩
  have key := fun i hi => C19_cells_round_trip (0, 0) g.ny g.nx cs hsh j i hj hi
  have k0 := key i hi
  unfold cellCorners at k0
  simp only at k0
  rw [← k0]
  simp only [EGrid.cell, EGrid.next]
  by_cases hpi : (g.periodic && decide (i + 1 = g.nx)) = true
  · rw [if_pos hpi]
    simp only [Bool.and_eq_true, decide_eq_true_eq] at hpi
    obtain ⟨q1, q2⟩ := hp hpi.1 j hj
    have hi1 : g.nx - 1 = i := by omega
    rw [hi1] at q1 q2
    have k1 := key 0 (by omega)
    unfold cellCorners at k1
    simp only at k1
    rw [← k1, ← k0] at q1 q2
    exact ⟨hrefl _, q1, q2, hrefl _⟩
  · rw [if_neg hpi]
    exact ⟨hrefl _, hrefl _, hrefl _, hrefl _⟩

/-- **C84 (partial).** If ESMF's weights of each cell add up to one, a constant slice stays constant wherever it is mapped. -/
theorem C84_constant_partial (E : Regrid.Ext) (hE : ∀ m s d i j ws, E.weights m s d i j = some ws → (ws.map (·.2)).sum = 1)
    (src : Regrid.Field) (dst : Regrid.Grid) (ds : Bool) (o : Options) (outs : List Out) (hl : LatFirst src dst)
    (h : regridField E src dst ds o = .ok outs) (n : Nat) (v : Regrid.Var) (out : Out) (hv : src.vars[n]? = some v)
    (ho : outs[n]? = some out) (k : Nat) (c : Rat) (hc : ∀ j i, v.data k j i = c) (j i : Nat) :
    out.data k j i = c ∨ out.data k j i = o.fillValue.getD v.fill := by
  obtain ⟨hf, hg, hd⟩ : src.yx = true ∧ src.grid.rowsFirst = true ∧ dst.rowsFirst = true := hl
  obtain ⟨es, ed, _, _, _, _, _, hr⟩ := regridField_inv h
  obtain ⟨_, h4⟩ := regridVar_inv hf ((regridVars_spec hr).2 n v out hv ho)
  rw [(h4 k j i).1]
  split
  · exact Or.inr rfl
  · rename_i ws hw
    left
    have hs := hE _ _ _ _ _ ws hw
    have : ∀ l : List ((Nat × Nat) × Rat), weightedSum l (v.data k) = (l.map (·.2)).sum * c := by
      intro l
      induction l with
      | nil => simp [weightedSum]
      | cons w l ih => rw [weightedSum, ih, hc, List.map_cons, List.sum_cons]; ring
    rw [this, hs, one_mul]

/-- **C84.** What is refused: fields that are not in the spherical coordinate system, conservative regridding when source or
destination have no bounds, and results without a single mapped cell. -/
theorem C84_refused (E : Regrid.Ext) (src : Regrid.Field) (dst : Regrid.Grid) (ds : Bool) (o : Options) :
    (src.crsSpherical = false ∨ ds = false → regridField E src dst ds o = .error .regridding) ∧
    (src.crsSpherical = true → ds = true → o.method = .conserve → (src.grid.cells = none ∨ dst.cells = none) →
      regridField E src dst ds o = .error .corners) ∧
    (0 < src.slices → (∀ m s d i j, E.weights m s d i j = none) → ∀ outs, regridField E src dst ds o ≠ .ok outs) := by
  refine ⟨?_, ?_, ?_⟩
  · intro h
    unfold regridField checkFields
    rw [if_pos (by rcases h with h | h <;> simp [h])]
  · intro h1 h2 h3 h4
    unfold regridField checkFields
    rw [if_neg (by simp [h1, h2]), if_pos (by rcases h4 with h | h <;> simp [h3, h])]
  · intro h0 hw outs h
    obtain ⟨es, ed, _, _, _, hne, _, hr⟩ := regridField_inv h
    cases hv : src.vars with
    | nil => exact hne hv
    | cons v vs =>
      rw [hv] at hr
      have : regridVar E (resolve o.method es ed) src es ed (o.split && src.extra) o.fillValue v = .error .regridding := by
        unfold regridVar
        simp only [hw, cellValue]
        rw [if_pos]
        unfold nothingMapped allFill
        split
        · rw [List.any_eq_true]
          exact ⟨0, List.mem_range.2 h0, by simp⟩
        · simp
      simp only [regridVars, this] at hr
      cases hr

/-- **C84.** Nothing is returned for grids or fields with longitude first that are not square: ESMF cannot hold the coordinates or the
values.  (For square ones see `C84_order_counterexample` and `C84_transposed_counterexample`.) -/
theorem C84_longitude_first (E : Regrid.Ext) (src : Regrid.Field) (dst : Regrid.Grid) (ds : Bool) (o : Options) (outs : List Out)
    (hl : ((dst.vectorized || dst.yx) = false ∧ dst.nx ≠ dst.ny) ∨
      ((src.grid.vectorized || src.grid.yx) = false ∧ src.grid.nx ≠ src.grid.ny) ∨ (src.yx = false ∧ src.grid.nx ≠ src.grid.ny)) :
    regridField E src dst ds o ≠ .ok outs := by
  have h : (dst.rowsFirst = false ∧ dst.nx ≠ dst.ny) ∨ (src.grid.rowsFirst = false ∧ src.grid.nx ≠ src.grid.ny) ∨
      (src.yx = false ∧ src.grid.nx ≠ src.grid.ny) := hl
  intro hok
  obtain ⟨es, ed, _, hes, hed, hne, hsh, hr⟩ := regridField_inv hok
  rcases h with ⟨h1, h2⟩ | ⟨h1, h2⟩ | ⟨h1, h2⟩
  · obtain ⟨_, _, _, _, _, hs, _⟩ := createEsmfGrid_inv hed
    simp only [Regrid.Grid.shape, h1, Bool.false_eq_true, if_false, Prod.mk.injEq] at hs
    exact h2 hs.1.symm
  · obtain ⟨_, _, _, _, _, hs, _⟩ := createEsmfGrid_inv hes
    simp only [Regrid.Grid.shape, h1, Bool.false_eq_true, if_false, Prod.mk.injEq] at hs
    exact h2 hs.1.symm
  · unfold Regrid.Field.shape at hsh
    rw [h1] at hsh
    simp only [Bool.false_eq_true, if_false, Prod.mk.injEq] at hsh
    exact h2 hsh.1.symm

example : regridField copying field22 { grid22 with nx := 3, yx := false, vectorized := false } true {} = .error .value := by rfl

/-! ### Cases and failures -/

/-- The cases of `C84_values_partial`, `C84_hidden_partial`, `C84_unmapped_partial`, `C84_split`, `C84_constant_partial`:
values are copied; cells hidden in the source or the destination are masked. -/
example : LatFirst field22 grid22 ∧ SameMasks field22 (fun j i => j == 1 && i == 0) ∧
    ∃ out, regridField copying field22 grid22 true {} = .ok [out] ∧
      (out.data 0 0 0, out.data 1 0 0, out.data 1 1 1) = (0, 100, 111) ∧
      (out.hidden 0 0 0, out.hidden 1 1 1, out.hidden 1 0 1, out.hidden 1 1 0) = (false, false, true, true) := by
  obtain ⟨out, h1, h2⟩ := one_ok (r := regridField copying field22 grid22 true {}) (fun out => decide
    ((out.data 0 0 0, out.data 1 0 0, out.data 1 1 1) = (0, 100, 111) ∧
      (out.hidden 0 0 0, out.hidden 1 1 1, out.hidden 1 0 1, out.hidden 1 1 0) = (false, false, true, true))) (by decide +kernel)
  refine ⟨⟨rfl, rfl, rfl⟩, ?_, out, h1, of_decide_eq_true h2⟩
  intro v hv k _ j i _ _
  cases List.mem_singleton.1 hv
  rfl

/-- Global longitudes, as in `C84_global`, `C84_east` and `C84_west`. -/
example : (∃ g : Regrid.Grid, g.vectorized = true ∧ g.nx = 36 ∧ (∀ i, i < g.nx → g.x 0 i = -175 + (i : Rat) * 10) ∧
      g.periodic = true) ∧
    (∃ g : Regrid.Grid, g.nx = 20 ∧ (∀ i, i < g.nx → g.x 0 i = 100 + (i : Rat) * 10) ∧ g.periodic = false) ∧
    ∃ g : Regrid.Grid, g.nx = 9 ∧ (∀ i, i < g.nx → g.x 0 i = -100 + (i : Rat) * 10) ∧ g.periodic = false :=
  ⟨⟨⟨1, 36, true, true, true, fun _ i => -175 + (i : Rat) * 10, fun _ _ => 0, none, none⟩, rfl, rfl, fun _ _ => rfl,
      by decide +kernel⟩,
    ⟨⟨1, 20, true, true, true, fun _ i => 100 + (i : Rat) * 10, fun _ _ => 0, none, none⟩, rfl, fun _ _ => rfl,
      by decide +kernel⟩,
    ⟨⟨1, 9, true, true, true, fun _ i => -100 + (i : Rat) * 10, fun _ _ => 0, none, none⟩, rfl, fun _ _ => rfl,
      by decide +kernel⟩⟩

/-- The case of `C84_corners_partial`: the global row, periodic and closed. -/
example : Shared 1 360 (rowCells (-180)) ∧ Closed 1 360 (rowCells (-180)) ∧ (rowGrid (-180) 360).periodic = true ∧
    ∃ e, createEsmfGrid (rowGrid (-180) 360) .auto none = .ok e := by
  refine ⟨⟨fun i j _ _ => ?_, fun i j hi _ => by omega⟩, fun j _ => ?_, ?_, _, rfl⟩
  · simp only [rowCells]
    refine ⟨?_, ?_⟩ <;> congr 1 <;> push_cast <;> ring
  · exact ⟨⟨rfl, -1, by simp only [rowCells]; norm_num⟩, rfl, -1, by simp only [rowCells]; norm_num⟩
  · exact C84_global (rowGrid (-180) 360) (-359/2) 1 rfl (by decide) (by decide +kernel) (by decide +kernel)
      (fun i _ => by show (-180 : Rat) + 1 / 2 + (i : Rat) = -359 / 2 + (i : Rat) * 1; ring) (by decide +kernel) (by decide +kernel)

/-- **C84 fails** for masks that change from slice to slice: a value masked in the second slice only enters the average
(505 instead of 10), though this ESMF respects the masks it is given. -/
theorem C84_slices_counterexample : RespectsMasks averaging ∧ ∃ (src : Regrid.Field) (dst : Regrid.Grid) (v : Regrid.Var) (out : Out),
    LatFirst src dst ∧ src.vars = [v] ∧ hidesValue v 1 0 0 = true ∧ hidesValue v 1 0 1 = false ∧ v.data 1 0 0 = 1000 ∧
      v.data 1 0 1 = 10 ∧ src.grid.nx = 2 ∧ src.grid.ny = 1 ∧ regridField averaging src dst true {} = .ok [out] ∧
      out.data 1 0 0 = 505 ∧ out.hidden 1 0 0 = false := by
  obtain ⟨out, h1, h2⟩ := one_ok (r := regridField averaging
    { grid := { ny := 1, nx := 2, x := fun _ i => 40 + (i : Rat), y := fun _ _ => 0 }, slices := 2
      vars := [⟨7, fun _ _ i => if i = 0 then 1000 else 10, some fun k _ i => k == 1 && i == 0, 1000⟩] }
    { ny := 1, nx := 1, x := fun _ _ => 40, y := fun _ _ => 0 } true {})
    (fun out => decide (out.data 1 0 0 = 505 ∧ out.hidden 1 0 0 = false)) (by decide +kernel)
  exact ⟨averaging_faithful,
    { grid := { ny := 1, nx := 2, x := fun _ i => 40 + (i : Rat), y := fun _ _ => 0 }, slices := 2
      vars := [⟨7, fun _ _ i => if i = 0 then 1000 else 10, some fun k _ i => k == 1 && i == 0, 1000⟩] },
    { ny := 1, nx := 1, x := fun _ _ => 40, y := fun _ _ => 0 },
    ⟨7, fun _ _ i => if i = 0 then 1000 else 10, some fun k _ i => k == 1 && i == 0, 1000⟩, out,
    ⟨rfl, rfl, rfl⟩, rfl, rfl, rfl, rfl, rfl, rfl, rfl, h1, of_decide_eq_true h2⟩

/-- **C84 fails** without `split`, and for variables that have latitude and longitude only: cells the destination hides and
ESMF does not map are not masked, they show the fill value. -/
theorem C84_unmasked_counterexample : RespectsMasks copying ∧ ∃ (src : Regrid.Field) (dst : Regrid.Grid) (o : Options) (out out' : Out),
    LatFirst src dst ∧ hides dst.hidden 0 1 = true ∧
      regridField copying src dst true { o with split := false } = .ok [out] ∧ out.hidden 0 0 1 = false ∧ out.data 0 0 1 = -999 ∧
      regridField copying { src with extra := false, slices := 1 } dst true { o with split := true } = .ok [out'] ∧
      out'.hidden 0 0 1 = false ∧ out'.data 0 0 1 = -999 := by
  obtain ⟨a, h1, h2⟩ := one_ok (r := regridField copying field22 grid22 true { split := false })
    (fun out => decide (out.hidden 0 0 1 = false ∧ out.data 0 0 1 = -999)) (by decide +kernel)
  obtain ⟨b, h3, h4⟩ := one_ok (r := regridField copying { field22 with extra := false, slices := 1 } grid22 true { split := true })
    (fun out => decide (out.hidden 0 0 1 = false ∧ out.data 0 0 1 = -999)) (by decide +kernel)
  have h2 := of_decide_eq_true h2
  exact ⟨copying_faithful, field22, grid22, {}, a, b, ⟨rfl, rfl, rfl⟩, rfl, h1, h2.1, h2.2, h3, of_decide_eq_true h4⟩

/-- **C84 fails** for mapped values equal to the fill value: with `fill_value=0` the zeros of the result are masked, and a slice of zeros raises
the error that nothing overlaps; all at once it does not. -/
theorem C84_fill_counterexample : RespectsMasks copying ∧
    (∃ (src : Regrid.Field) (dst : Regrid.Grid) (v : Regrid.Var) (out : Out), LatFirst src dst ∧ src.vars = [v] ∧
      v.hidden = none ∧ src.grid.hidden = none ∧ dst.hidden = none ∧ v.data 0 0 0 = 0 ∧
      regridField copying src dst true { fillValue := some 0 } = .ok [out] ∧ out.hidden 0 0 0 = true) ∧
    ∃ (src : Regrid.Field) (dst : Regrid.Grid) (out : Out), LatFirst src dst ∧
      regridField copying src dst true { fillValue := some 0 } = .error .regridding ∧
      regridField copying src dst true { fillValue := some 0, split := false } = .ok [out] := by
  obtain ⟨a, h1, h2⟩ := one_ok (r := regridField copying
    { grid := { grid22 with hidden := none }, slices := 1, vars := [⟨7, fun _ j i => (j : Rat) + (i : Rat), none, -999⟩] }
    { grid22 with hidden := none } true { fillValue := some 0 }) (fun out => out.hidden 0 0 0) (by decide +kernel)
  obtain ⟨b, h3, _⟩ := one_ok (r := regridField copying
    { grid := grid22, slices := 2, vars := [⟨7, fun k j i => (k : Rat) * ((j : Rat) + (i : Rat)), none, -999⟩] } grid22 true
    { fillValue := some 0, split := false }) (fun _ => true) (by decide +kernel)
  exact ⟨copying_faithful,
    ⟨{ grid := { grid22 with hidden := none }, slices := 1, vars := [⟨7, fun _ j i => (j : Rat) + (i : Rat), none, -999⟩] },
      { grid22 with hidden := none }, ⟨7, fun _ j i => (j : Rat) + (i : Rat), none, -999⟩, a, ⟨rfl, rfl, rfl⟩, rfl, rfl, rfl, rfl,
      by decide +kernel, h1, h2⟩,
    { grid := grid22, slices := 2, vars := [⟨7, fun k j i => (k : Rat) * ((j : Rat) + (i : Rat)), none, -999⟩] }, grid22, b,
    ⟨rfl, rfl, rfl⟩, one_err (by decide +kernel), h3⟩

/-- **C84 fails** for a mask given by the user ("with same shape as" the source grid): it is laid over the destination too.
Regridding to a grid of another shape is refused; with the same shape, cells of the destination are masked. -/
theorem C84_value_mask_counterexample : RespectsMasks averaging ∧ ∃ (src : Regrid.Field) (dst dst' : Regrid.Grid) (m : MaskArr) (a b : Out),
    LatFirst src dst ∧ LatFirst src dst' ∧ (m.rows, m.cols) = (src.grid.ny, src.grid.nx) ∧ dst'.hidden = none ∧
      regridField averaging src dst true {} = .ok [a] ∧
      regridField averaging src dst true { valueMask := some m } = .error .value ∧
      regridField averaging src dst' true { valueMask := some m } = .ok [b] ∧ m.get 0 0 = true ∧ b.hidden 0 0 0 = true := by
  obtain ⟨a, h1, _⟩ := one_ok (r := regridField averaging field22
    { ny := 1, nx := 1, x := fun _ _ => 40, y := fun _ _ => 0 } true {}) (fun _ => true) (by decide +kernel)
  obtain ⟨b, h3, h4⟩ := one_ok (r := regridField averaging field22 { grid22 with hidden := none } true
    { valueMask := some ⟨2, 2, fun j i => j == 0 && i == 0⟩ }) (fun out => out.hidden 0 0 0) (by decide +kernel)
  exact ⟨averaging_faithful, field22, { ny := 1, nx := 1, x := fun _ _ => 40, y := fun _ _ => 0 }, { grid22 with hidden := none },
    ⟨2, 2, fun j i => j == 0 && i == 0⟩, a, b, ⟨rfl, rfl, rfl⟩, ⟨rfl, rfl, rfl⟩, rfl, rfl, h1, rfl, h3, rfl, h4⟩

/-- **C84 fails** for variables stored with longitude before latitude: on a square grid the values come out transposed, on
other grids they are refused. -/
theorem C84_order_counterexample : ∃ (src src' : Regrid.Field) (dst dst' : Regrid.Grid) (v : Regrid.Var) (out : Out),
    dst.yx = true ∧ dst'.yx = true ∧ src.yx = false ∧ src'.yx = false ∧ src.vars = [v] ∧ (dst.ny, dst.nx) = (src.grid.ny, src.grid.nx) ∧
      (dst'.ny, dst'.nx) = (src'.grid.ny, src'.grid.nx) ∧
      regridField copying src dst true {} = .ok [out] ∧ out.data 0 0 1 = v.data 0 1 0 ∧ v.data 0 1 0 ≠ v.data 0 0 1 ∧
      regridField copying src' dst' true {} = .error .value := by
  obtain ⟨a, h1, h2⟩ := one_ok (r := regridField copying
    { grid := { grid22 with hidden := none, yx := false }, yx := false, slices := 1, vars := [⟨7, fun _ j i => 10 * (j : Rat) + (i : Rat), none, -999⟩] } { grid22 with hidden := none } true {})
    (fun out => decide (out.data 0 0 1 = 10)) (by decide +kernel)
  exact ⟨{ grid := { grid22 with hidden := none, yx := false }, yx := false, slices := 1, vars := [⟨7, fun _ j i => 10 * (j : Rat) + (i : Rat), none, -999⟩] },
    { grid := { ny := 1, nx := 2, yx := false, x := fun _ i => 40 + (i : Rat), y := fun _ _ => 0 }, yx := false, slices := 1, vars := [⟨7, fun _ _ i => (i : Rat), none, -999⟩] },
    { grid22 with hidden := none }, { ny := 1, nx := 2, x := fun _ i => 40 + (i : Rat), y := fun _ _ => 0 },
    ⟨7, fun _ j i => 10 * (j : Rat) + (i : Rat), none, -999⟩, a, rfl, rfl, rfl, rfl, rfl, rfl, rfl, h1,
    (of_decide_eq_true h2).trans (by decide +kernel), by decide +kernel, rfl⟩

/-- **C84 fails** for coordinate matrices stored with longitude before latitude: on a square grid ESMF has the centres of other cells. -/
theorem C84_transposed_counterexample : ∃ (g : Regrid.Grid) (e : EGrid), g.rowsFirst = false ∧ createEsmfGrid g .auto none = .ok e ∧
    e.x 1 0 = g.x 1 0 ∧ g.x 1 0 ≠ g.x 0 1 :=
  ⟨{ grid22 with yx := false, vectorized := false }, _, rfl, rfl, rfl, by decide +kernel⟩

/-- **C84 fails** for fields without data variables: an unbound local variable, although the code means to use the grid
instead. -/
theorem C84_no_variables_counterexample : ∃ (src : Regrid.Field) (dst : Regrid.Grid), LatFirst src dst ∧ src.vars = [] ∧
    regridField copying src dst true {} = .error .unbound :=
  ⟨{ field22 with vars := [] }, grid22, ⟨rfl, rfl, rfl⟩, rfl, rfl⟩

/-- **C84 fails** for regional grids across Greenwich: longitudes from -10 to 10 make a periodic ESMF grid, and the last
cell, from 9 to 10, has for ESMF its eastern corners at -10. -/
theorem C84_greenwich_counterexample : (rowGrid (-10) 20).periodic = true ∧ Shared 1 20 (rowCells (-10)) ∧
    ¬ Closed 1 20 (rowCells (-10)) ∧
    ∃ e c, createEsmfGrid (rowGrid (-10) 20) .auto none = .ok e ∧ e.corner = some c ∧
      (rowCells (-10) 0 19).c1 = (10, 0) ∧ (e.cell c 19 0).c1 = (-10, 0) ∧ ¬ SameCell (e.cell c 19 0) (rowCells (-10) 0 19) := by
  have hno : ¬ SamePlace (-10, 0) (10, 0) := by
    rintro ⟨_, n, hn⟩
    simp only at hn
    have h2 : ((360 * n : Int) : Rat) = ((-20 : Int) : Rat) := by push_cast; linarith
    have h3 : 360 * n = -20 := by exact_mod_cast h2
    omega
  have h10 : (rowCells (-10) 0 19).c1 = (10, 0) := by decide +kernel
  refine ⟨by decide +kernel, ⟨fun i j _ _ => ?_, fun i j hi _ => by omega⟩, ?_, ?_⟩
  · simp only [rowCells]
    refine ⟨?_, ?_⟩ <;> congr 1 <;> push_cast <;> ring
  · intro h
    have := (h 0 (by decide)).1
    apply hno
    have e0 : (rowCells (-10) 0 0).c0 = (-10, 0) := by decide +kernel
    rw [e0] at this
    rw [← h10]
    exact this
  · refine ⟨_, _, rfl, rfl, h10, by decide +kernel, ?_⟩
    intro h
    have h2 := h.2.1
    rw [h10] at h2
    exact hno (by
      have e1 : ((-10 : Rat), (0 : Rat)) = ((EGrid.cell ⟨20, 1, (rowGrid (-10) 20).periodic, fun i j => (rowGrid (-10) 20).x j i, fun i j => (rowGrid (-10) 20).y j i,
        fun _ _ => true, some (meshFromCells (0, 0) 1 20 (stored true (rowCells (-10))))⟩
        (meshFromCells (0, 0) 1 20 (stored true (rowCells (-10)))) 19 0)).c1 := by decide +kernel
      rw [e1]
      exact h2)

/-- **C84 fails** for a global grid of two columns, which is not taken to be periodic, and the resolution is wrong for
coordinates on both sides of zero. -/
theorem C84_zero_counterexample :
    (∃ g : Regrid.Grid, g.vectorized = true ∧ g.nx = 2 ∧ (∀ i, i < g.nx → g.x 0 i = -90 + (i : Rat) * 180) ∧ g.periodic = false) ∧
    resolution1 (evenly (-3/2) 1 4) = some (2/3) :=
  ⟨⟨⟨1, 2, true, true, true, fun _ i => -90 + (i : Rat) * 180, fun _ _ => 0, none, none⟩, rfl, rfl, fun _ _ => rfl, by decide +kernel⟩,
    by decide +kernel⟩

/-- **C84.** The result of the regridding operation is in the coordinate system of the source.  The destination field keeps its
own if it is to be reverted. -/
theorem C84_operation {C : Type _} [DecidableEq C] (sph src dst : C) (revert : Bool) :
    (execute sph revert src dst).result = src ∧ (execute sph true src dst).destination = dst := by
  unfold execute
  by_cases h : src = sph <;> by_cases h2 : dst = sph <;> simp [h, h2]

/-- **C84 fails** for the source of the operation: it is left in the spherical system (coordinate systems 1 and 0), even with `revert_dst_crs`;
so is the destination without. -/
theorem C84_operation_counterexample : ∃ (sph src dst : Nat), (execute sph true src dst).source ≠ src ∧
    (execute sph false src dst).destination ≠ dst := ⟨0, 1, 1, by decide, by decide⟩

end Ocgis.Props
