import Verif.Spec.EsmfConvert
import Verif.Props.Broadcast
import Verif.Props.Masks
import Verif.Props.Regrid
/-! Lemmas about ESMF objects. -/
namespace Ocgis.Proofs
open Ocgis Ocgis.Spec Ocgis.EsmfConvert Ocgis.Props
open Ocgis.Array (Arr Var broadcastVariable broadcastScope)
open Ocgis.Regrid (EGrid Method MaskArr createEsmfGrid)

theorem newOrder_perm {f : EsmfConvert.Field} {v : DataVar} {size : String → Nat} (h : Convertible f v size) :
    v.var.names.Perm (newOrder f v.var.names) := by
  have hn : (newOrder f v.var.names).Nodup := by
    unfold newOrder otherDims
    rw [List.nodup_append, List.nodup_append]
    refine ⟨⟨by simp [Ne.symm h.axes], h.distinct.filter _, ?_⟩, ?_, ?_⟩
    · intro a ha b hb hab
      subst hab
      simp only [List.mem_filter, Bool.and_eq_true, Bool.not_eq_true', List.contains_eq_mem, decide_eq_false_iff_not] at hb
      exact hb.2.1 ha
    · cases f.time <;> simp
    · intro a ha b hb hab
      subst hab
      cases ht : f.time with
      | none => simp [ht] at hb
      | some tn =>
        obtain ⟨t, n⟩ := tn
        simp only [ht, Option.map_some, Option.toList_some, List.mem_singleton] at hb
        subst hb
        obtain ⟨_, h1, h2, _⟩ := h.time _ _ ht
        rcases List.mem_append.1 ha with ha | ha
        · simp only [List.mem_cons, List.not_mem_nil, or_false] at ha
          rcases ha with ha | ha
          · exact h2 ha
          · exact h1 ha
        · simp [ht] at ha
  rw [List.perm_ext_iff_of_nodup h.distinct hn]
  intro a
  unfold newOrder otherDims
  simp only [List.mem_append, List.mem_cons, List.not_mem_nil, or_false, List.mem_filter, Bool.and_eq_true, Bool.not_eq_true',
    List.contains_eq_mem, decide_eq_false_iff_not, decide_eq_true_eq, Option.mem_toList, ne_eq, not_or]
  constructor
  · intro ha
    by_cases h1 : a = f.xn
    · exact .inl (.inl (.inl h1))
    · by_cases h2 : a = f.yn
      · exact .inl (.inl (.inr h2))
      · by_cases h3 : f.time.map (·.1) = some a
        · exact .inr h3
        · exact .inl (.inr ⟨ha, ⟨h1, h2⟩, fun h => h3 h.symm⟩)
  · rintro (((h1 | h1) | h1) | h1)
    · rw [h1]; exact h.lon.1
    · rw [h1]; exact h.lat.1
    · exact h1.1
    · cases ht : f.time with
      | none => simp [ht] at h1
      | some tn =>
        simp only [ht, Option.map_some, Option.some.injEq] at h1
        subst h1
        exact (h.time tn.1 tn.2 ht).1

theorem dimSize_eq {v : Var Rat} {size : String → Nat} (hs : v.value.shape = v.names.map size) {d : String} (hd : d ∈ v.names) :
    dimSize v d = size d := by
  have hl := List.idxOf_lt_length_of_mem hd
  unfold dimSize
  rw [hs, List.getD_eq_getElem?_getD, List.getElem?_map, List.getElem?_eq_getElem hl, List.getElem_idxOf hl]
  rfl

theorem esmfShape_eq {f : EsmfConvert.Field} {v : DataVar} {size : String → Nat} (h : Convertible f v size) {e : EGrid}
    (hx : e.nx = f.grid.nx) (hy : e.ny = f.grid.ny) : esmfShape f e v.var = (newOrder f v.var.names).map size := by
  unfold esmfShape newOrder
  simp only [List.map_append, List.map_cons, List.map_nil, h.lon.2, h.lat.2, hx, hy]
  congr 1
  · congr 1
    apply List.map_congr_left
    intro d hd
    exact dimSize_eq h.shape (List.mem_filter.1 hd).1
  · cases ht : f.time with
    | none => rfl
    | some tn => simp [(h.time tn.1 tn.2 ht).2.2.2]

theorem createEsmfGrid_sizes {g : Regrid.Grid} {m : Method} {vm : Option MaskArr} {e : EGrid} (h : createEsmfGrid g m vm = .ok e) :
    e.nx = g.nx ∧ e.ny = g.ny := by
  obtain ⟨u, c, _, _, _, _, rfl⟩ := createEsmfGrid_inv h
  exact ⟨rfl, rfl⟩

/-- A scope whose body only looks at the variable. -/
theorem scope_reads (v : Var Rat) (dst : List String) (hs : v.names.Nodup) (hp : v.names.Perm dst) (size : String → Nat)
    (hshape : v.value.shape = v.names.map size) (hmask : ∀ m, v.mask = some m → m.shape = v.names.map size)
    (chk : Var Rat → Option PyErr) :
    ∃ w x, broadcastVariable v dst = .ok w ∧ w.value.shape = dst.map size ∧
      (∀ pos : String → Nat, w.value.elem (dst.map pos) = v.value.elem (v.names.map pos)) ∧
      broadcastScope v dst (fun w => (chk w, w)) = (chk w, x) ∧ SameVariable size x v := by
  obtain ⟨w, h1, h2, h3, h4, h5, h6⟩ := C16_broadcast_variable v dst hs hp size hshape hmask
  have hd : dst.Nodup := hp.nodup_iff.1 hs
  have hwm : ∀ m, w.mask = some m → m.shape = dst.map size := by
    intro m hm
    cases hv : v.mask with
    | none => rw [hv, hm] at h5; cases h5
    | some m0 => exact (h6 m0 m hv hm).1
  obtain ⟨x, x1, x2, x3, x4, x5, x6⟩ := C16_broadcast_variable w v.names (by rw [h2]; exact hd)
    (by rw [h2]; exact hp.symm) size (by rw [h2]; exact h3) (by rw [h2]; exact hwm)
  refine ⟨w, x, h1, h3, h4, by unfold broadcastScope; simp only [h1, x1], ?_⟩
  refine ⟨x2, by rw [x3, hshape], ?_, ?_⟩
  · intro pos _
    unfold valueAt
    rw [x2, x4 pos, h2, h4]
  · intro pos _
    unfold MaskedThere
    rw [x2]
    cases hv : v.mask with
    | none =>
      have hw : w.mask = none := by cases hw : w.mask with
        | none => rfl
        | some _ => rw [hv, hw] at h5; cases h5
      have hx : x.mask = none := by cases hx : x.mask with
        | none => rfl
        | some _ => rw [hw, hx] at x5; cases x5
      simp [hx]
    | some m0 =>
      obtain ⟨m1, hw⟩ : ∃ m1, w.mask = some m1 := by
        cases hw : w.mask with
        | none => rw [hv, hw] at h5; cases h5
        | some m1 => exact ⟨m1, rfl⟩
      obtain ⟨m2, hx⟩ : ∃ m2, x.mask = some m2 := by
        cases hx : x.mask with
        | none => rw [hw, hx] at x5; cases x5
        | some m2 => exact ⟨m2, rfl⟩
      have e1 := (h6 m0 m1 hv hw).2 pos
      have e2 := (x6 m1 m2 hw hx).2 pos
      rw [h2] at e2
      simp [hx, e2, e1]

/-- Converting a field with one variable. -/
theorem toEsmf_ok {f : EsmfConvert.Field} {v : DataVar} {size : String → Nat} (h : Convertible f v size) (name : Option String) {m : Method}
    {vm : Option MaskArr} {e : EGrid} (he : createEsmfGrid f.grid m vm = .ok e) :
    ∃ (data : Arr Rat) (x : Var Rat), SameVariable size x v.var ∧ data.shape = (newOrder f v.var.names).map size ∧
      (∀ pos : String → Nat, data.elem ((newOrder f v.var.names).map pos) = valueAt v.var pos) ∧
      toEsmf f name m vm =
        (.ok ⟨e, some (name.getD v.name), v.dtype, data, newOrder f v.var.names, some v.var.names,
          { f with grid := gridAfter f.grid m vm, vars := replaceVar f.vars { v with var := x } }⟩,
          { f with grid := gridAfter f.grid m vm, vars := replaceVar f.vars { v with var := x } }) := by
  obtain ⟨hx, hy⟩ := createEsmfGrid_sizes he
  obtain ⟨w, x, h1, h2, h3, h4, h5⟩ := scope_reads v.var (newOrder f v.var.names) h.distinct (newOrder_perm h) size h.shape h.maskShape
    (fun w => if w.value.shape = esmfShape f e v.var then none else some .valueError)
  refine ⟨w.value, x, h5, h2, h3, ?_⟩
  have hd : v.dtype ≠ .other := by rcases h.float with h | h <;> rw [h] <;> simp
  have hfill : fillData f e v.var = (.ok w.value, x) := by
    unfold fillData
    simp only [h4]
    simp only [h2, esmfShape_eq h hx hy, if_true, h1]
  unfold toEsmf
  rw [h.only]
  simp only [he, if_neg hd, hfill]

/-- Masks cascaded to a variable that has none. -/
theorem cascadeOne_fresh (mask : Masks.MVar) (v : DataVar) (size : String → Nat) (yn xn : String) (ny nx : Nat)
    (hidden : Nat → Nat → Bool) (hname : mask.name ≠ v.name) (hnames : mask.names = [yn, xn]) (hshape : mask.shape = [ny, nx])
    (hmask : mask.mask = some fun idx => hidden (idx.getD 0 0) (idx.getD 1 0)) (hfresh : v.var.mask = none)
    (hd : v.var.names.Nodup) (hs : v.var.value.shape = v.var.names.map size) (hy : yn ∈ v.var.names) (hx : xn ∈ v.var.names)
    (hyx : yn ≠ xn) (sy : size yn = ny) (sx : size xn = nx) :
    ∃ m, Masks.cascadeOne mask [] false v.mvar = .ok m ∧ m.shape = v.var.value.shape ∧
      ∀ pos, Within size v.var.names pos →
        (MaskedThere (v.withMask m).var pos ↔ hidden (pos yn) (pos xn) = true) := by
  have hone : Masks.cascadeOne mask [] false v.mvar = Masks.setMaskByVariable mask v.mvar false := by
    unfold Masks.cascadeOne
    rw [if_neg]
    rintro (h | h | h | h)
    · cases h
    · exact hname h
    · simp only [DataVar.mvar] at h; rw [h] at hy; cases hy
    · have : (mask.names.filter v.mvar.names.contains) = [] := by simpa [Masks.sliceMap] using h
      rw [List.filter_eq_nil_iff] at this
      exact this yn (by simp [hnames]) (by simpa [DataVar.mvar] using hy)
  have hupd : Masks.setMaskByVariable mask v.mvar false = Masks.setMaskByVariable mask v.mvar true := by
    unfold Masks.setMaskByVariable Masks.setMask
    simp only [DataVar.mvar, hfresh, hmask, Option.map_none, Masks.orMask, Option.map_some, if_true, Bool.false_eq_true, if_false]
  have hsize : SameSizes mask.names v.mvar.names mask.shape v.mvar.shape := by
    intro i j n h1 h2
    simp only [DataVar.mvar] at h2 ⊢
    rw [hs, List.getElem?_map, h2, hshape]
    rw [hnames] at h1
    match i with
    | 0 => simp at h1; subst h1; simp [sy]
    | 1 => simp at h1; subst h1; simp [sx]
    | i + 2 => simp at h1
  obtain ⟨m, h1, h2, h3, h4⟩ := C34_cascade_partial mask v.mvar true _ hmask (.inr rfl) (by rw [hnames]; simp [hyx]) hd
    (by rw [hnames, hshape]; rfl) (by simp [DataVar.mvar, hs]) hsize
  refine ⟨m, by rw [hone, hupd, h1], h2, ?_⟩
  intro pos hpos
  have hin : IdxIn v.mvar.shape (v.var.names.map pos) := by
    simp only [DataVar.mvar, hs]
    refine ⟨by simp, fun k hk => ?_⟩
    simp only [List.length_map] at hk
    simp only [List.getD_eq_getElem?_getD, List.getElem?_map, List.getElem?_eq_getElem hk, Option.map_some, Option.getD_some]
    exact hpos _ (List.getElem_mem hk)
  have key := h4 _ hin
  have hmt : (MaskedThere (v.withMask m).var pos) ↔ m.masked (v.var.names.map pos) = true := by
    unfold MaskedThere DataVar.withMask Masks.MVar.masked
    simp only
    cases m.mask <;> simp
  rw [hmt, key]
  have hno : v.mvar.masked (v.var.names.map pos) = false := by simp [Masks.MVar.masked, DataVar.mvar, hfresh]
  simp only [hno, Bool.false_eq_true, false_or]
  have at0 : ∀ n ∈ v.var.names, ∃ j, v.var.names[j]? = some n := fun n hn =>
    ⟨v.var.names.idxOf n, by rw [List.getElem?_eq_getElem (List.idxOf_lt_length_of_mem hn), List.getElem_idxOf]⟩
  constructor
  · rintro ⟨s, hs1, hs2, hs3⟩
    obtain ⟨j, hj⟩ := at0 _ hy
    obtain ⟨k, hk⟩ := at0 _ hx
    have e0 := hs3 0 j yn (by rw [hnames]; rfl) (by simpa [DataVar.mvar] using hj)
    have e1 := hs3 1 k xn (by rw [hnames]; rfl) (by simpa [DataVar.mvar] using hk)
    rw [List.getElem?_map, hj] at e0
    rw [List.getElem?_map, hk] at e1
    simpa [List.getD_eq_getElem?_getD, e0, e1] using hs2
  · intro hh
    refine ⟨[pos yn, pos xn], ?_, by simpa using hh, ?_⟩
    · rw [hshape]
      refine ⟨rfl, ?_⟩
      intro k hk
      match k with
      | 0 => simpa [sy] using hpos _ hy
      | 1 => simpa [sx] using hpos _ hx
      | k + 2 => simp at hk
    · intro i j n a1 a2
      rw [hnames] at a1
      simp only [DataVar.mvar] at a2
      rw [List.getElem?_map, a2]
      match i with
      | 0 => simp at a1; subst a1; rfl
      | 1 => simp at a1; subst a1; rfl
      | i + 2 => simp at a1

/-- Cascading to a variable whose dimensions fit succeeds. -/
theorem cascadeOne_ok (mask : Masks.MVar) (v : DataVar) (size : String → Nat) (yn xn : String) (ms : List Nat → Bool)
    (hnames : mask.names = [yn, xn]) (hshape : mask.shape = [size yn, size xn]) (hmask : mask.mask = some ms) (hyx : yn ≠ xn)
    (hd : v.var.names.Nodup) (hs : v.var.value.shape = v.var.names.map size) :
    ∃ m, Masks.cascadeOne mask [] false v.mvar = .ok m := by
  unfold Masks.cascadeOne
  split
  · exact ⟨_, rfl⟩
  · have hsize : SameSizes mask.names v.mvar.names mask.shape v.mvar.shape := by
      intro i j n h1 h2
      simp only [DataVar.mvar] at h2 ⊢
      rw [hs, List.getElem?_map, h2, hshape]
      rw [hnames] at h1
      match i with
      | 0 => simp at h1; subst h1; simp
      | 1 => simp at h1; subst h1; simp
      | i + 2 => simp at h1
    by_cases hn : mask.names = v.mvar.names
    · unfold Masks.setMaskByVariable Masks.setMask
      rw [hmask]
      simp only [if_pos hn]
      have : mask.shape = v.mvar.shape := by
        have hv : v.var.names = [yn, xn] := by rw [← hnames, hn]; rfl
        simp only [DataVar.mvar, hs, hv, hshape, List.map_cons, List.map_nil]
      simp [Masks.shapeOk, this]
    · obtain ⟨m, h1, _⟩ := C34_cascade_partial mask v.mvar false ms hmask (.inl hn) (by rw [hnames]; simp [hyx]) hd
        (by rw [hnames, hshape]; rfl) (by simp [DataVar.mvar, hs]) hsize
      exact ⟨m, h1⟩

/-- Cascading to all variables. -/
theorem cascadeMask_ok (mask : Masks.MVar) (vs : List DataVar) (h : ∀ v ∈ vs, ∃ m, Masks.cascadeOne mask [] false v.mvar = .ok m) :
    ∃ vs', cascadeMask mask vs = .ok vs' ∧ vs'.length = vs.length ∧
      ∀ (i : Nat) (v v' : DataVar), vs[i]? = some v → vs'[i]? = some v' → ∃ m, Masks.cascadeOne mask [] false v.mvar = .ok m ∧ v' = v.withMask m := by
  induction vs with
  | nil => exact ⟨[], rfl, rfl, by simp⟩
  | cons v vs ih =>
    obtain ⟨m, hm⟩ := h v (by simp)
    obtain ⟨vs', h1, h2, h3⟩ := ih (fun w hw => h w (List.mem_cons_of_mem _ hw))
    refine ⟨v.withMask m :: vs', by simp only [cascadeMask, hm, h1], by simp [h2], ?_⟩
    intro i w w' hw hw'
    cases i with
    | zero =>
      simp only [List.getElem?_cons_zero, Option.some.injEq] at hw hw'
      subst hw hw'
      exact ⟨m, hm, rfl⟩
    | succ i => exact h3 i w w' (by simpa using hw) (by simpa using hw')

theorem cascadeMask_append {mask : Masks.MVar} {xs xs' : List DataVar} {v : DataVar} {m : Masks.MVar}
    (h : cascadeMask mask xs = .ok xs') (hm : Masks.cascadeOne mask [] false v.mvar = .ok m) :
    cascadeMask mask (xs ++ [v]) = .ok (xs' ++ [v.withMask m]) := by
  induction xs generalizing xs' with
  | nil => simp only [cascadeMask] at h; cases h; simp only [List.nil_append, cascadeMask, hm]
  | cons a xs ih =>
    simp only [cascadeMask] at h
    split at h
    · cases h
    · rename_i ma hma
      split at h
      · cases h
      · rename_i ys hys
        cases h
        simp only [List.cons_append, cascadeMask, hma, ih hys]

/-- A variable beside the grid keeps its mask. -/
theorem beside_kept (mask : Masks.MVar) (v : DataVar) (yn xn : String) (hnames : mask.names = [yn, xn]) (hy : yn ∉ v.var.names)
    (hx : xn ∉ v.var.names) {m : Masks.MVar} (h : Masks.cascadeOne mask [] false v.mvar = .ok m) (pos : String → Nat) :
    MaskedThere (v.withMask m).var pos ↔ MaskedThere v.var pos := by
  unfold Masks.cascadeOne at h
  rw [if_pos (by
    right; right; right
    simp [Masks.sliceMap, hnames, DataVar.mvar, hy, hx])] at h
  cases h
  unfold MaskedThere DataVar.withMask DataVar.mvar
  cases v.var.mask <;> simp

/-- The field made of an ESMF field. -/
theorem fromEsmf_ok {f : EsmfConvert.Field} {v : DataVar} {size : String → Nat} (h : Convertible f v size) (name : String) {m : Method}
    {vm : Option MaskArr} {e : EGrid} {data : Arr Rat} {x : Var Rat} (hx : SameVariable size x v.var)
    (hshape : data.shape = (newOrder f v.var.names).map size) (hne : name ≠ f.maskName) :
    let src : EsmfConvert.Field := { f with grid := gridAfter f.grid m vm, vars := replaceVar f.vars { v with var := x } }
    ∃ (back : EsmfConvert.Field) (others : List DataVar) (b : DataVar),
      fromEsmf ⟨e, some name, v.dtype, data, newOrder f v.var.names, some v.var.names, src⟩ = .ok back ∧
      back = { src with vars := others ++ [b] } ∧ b.name = name ∧ b.dtype = v.dtype ∧ b.isData = true ∧ b.var.names = v.var.names ∧
      b.var.value.shape = v.var.names.map size ∧
      (∀ pos : String → Nat, valueAt b.var pos = data.elem ((newOrder f v.var.names).map pos)) ∧
      (∀ pos, Within size v.var.names pos → (MaskedThere b.var pos ↔ hides f.grid.hidden (pos f.yn) (pos f.xn) = true)) ∧
      (∀ o ∈ others, o.isData = false) ∧
      others.length = ((src.vars.map fun w => { w with isData := false }).filter fun w => w.name ≠ name).length ∧
      ∀ (i : Nat) (w o : DataVar), ((src.vars.map fun w => { w with isData := false }).filter fun w => w.name ≠ name)[i]? = some w →
        others[i]? = some o → o.name = w.name ∧ o.dtype = w.dtype ∧ o.var.names = w.var.names ∧ o.var.value = w.var.value ∧
          (f.yn ∉ w.var.names → f.xn ∉ w.var.names → ∀ pos, MaskedThere o.var pos ↔ MaskedThere w.var pos) := by
  intro src
  have hperm := newOrder_perm h
  obtain ⟨w, w1, w2, w3, w4, w5, w6⟩ := C16_broadcast_variable (⟨newOrder f v.var.names, data, none⟩ : Var Rat) v.var.names
    (hperm.nodup_iff.1 h.distinct) hperm.symm size hshape (by intro m hm; cases hm)
  have hwm : w.mask = none := by
    cases hw : w.mask with
    | none => rfl
    | some _ => rw [hw] at w5; cases w5
  obtain ⟨pre, hpre⟩ : ∃ pre, pre = (src.vars.map fun w => { w with isData := false }).filter fun w => w.name ≠ name := ⟨_, rfl⟩
  rw [← hpre]
  have hback : backVar ⟨e, some name, v.dtype, data, newOrder f v.var.names, some v.var.names, src⟩ name =
      .ok { name := name, dtype := v.dtype, var := w } := by
    simp only [backVar, w1]
  have hadd : addVar src.vars { name := name, dtype := v.dtype, var := w } = pre ++ [{ name := name, dtype := v.dtype, var := w }] := by
    rw [hpre]; rfl
  have hprenot : ∀ o ∈ pre, o.isData = false := by
    intro o ho
    rw [hpre, List.mem_filter, List.mem_map] at ho
    obtain ⟨⟨a, _, rfl⟩, _⟩ := ho
    rfl
  have hprefit : ∀ o ∈ pre, o.var.names.Nodup ∧ o.var.value.shape = o.var.names.map size := by
    intro o ho
    rw [hpre, List.mem_filter, List.mem_map] at ho
    obtain ⟨⟨a, ha, rfl⟩, _⟩ := ho
    simp only [src, replaceVar, List.mem_map] at ha
    obtain ⟨b, hb, rfl⟩ := ha
    split
    · simp only [hx.names, hx.shape]
      exact ⟨h.distinct, h.shape⟩
    · exact h.others b hb
  cases hh : f.grid.hidden with
  | none =>
    cases hvm : vm with
    | none =>
      refine ⟨{ src with vars := pre ++ [{ name := name, dtype := v.dtype, var := w }] }, pre, _, ?_, rfl, rfl, rfl, rfl, w2, w3,
        fun pos => ?_, fun pos _ => ?_, hprenot, rfl, ?_⟩
      · unfold fromEsmf
        simp only [hback]
        have : src.grid.hidden = none := by simp [src, gridAfter, hh, hvm]
        rw [this]
        simp only [hadd]
      · unfold valueAt; simp only [w2]; exact w4 pos
      · simp [MaskedThere, hides, hwm]
      · intro i a o h1 h2
        rw [h1] at h2; cases h2
        exact ⟨rfl, rfl, rfl, rfl, fun _ _ _ => Iff.rfl⟩
    | some vmask =>
      have hsrc : src.grid.hidden = some fun _ _ => false := by simp [src, gridAfter, hh, hvm]
      obtain ⟨mb, c1, c2, c3⟩ := cascadeOne_fresh (src.maskVar fun _ _ => false) { name := name, dtype := v.dtype, var := w } size f.yn f.xn
        f.grid.ny f.grid.nx (fun _ _ => false) (by exact Ne.symm hne) rfl rfl rfl hwm (by rw [w2]; exact h.distinct) (by simp only [w3, w2])
        (by simp only [w2]; exact h.lat.1) (by simp only [w2]; exact h.lon.1) h.axes h.lat.2 h.lon.2
      obtain ⟨pre', p1, p2, p3⟩ := cascadeMask_ok (src.maskVar fun _ _ => false) pre (fun o ho =>
        cascadeOne_ok _ o size f.yn f.xn _ rfl (by simp only [h.lat.2, h.lon.2]; rfl) rfl h.axes (hprefit o ho).1 (hprefit o ho).2)
      refine ⟨{ src with vars := pre' ++ [DataVar.withMask { name := name, dtype := v.dtype, var := w } mb] }, pre', _, ?_, rfl, rfl, rfl, rfl, w2, w3,
        fun pos => ?_, fun pos hp => ?_, ?_, p2, ?_⟩
      · unfold fromEsmf
        simp only [hback, hsrc, hadd, cascadeMask_append p1 c1]
      · simp only [valueAt, DataVar.withMask, w2]; exact w4 pos
      · rw [c3 pos (by simp only [w2]; exact hp)]; simp [hides]
      · intro o ho
        obtain ⟨i, hi, hio⟩ := List.getElem_of_mem ho
        obtain ⟨mm, _, e2⟩ := p3 i pre[i] o (List.getElem?_eq_getElem (by omega)) (by rw [List.getElem?_eq_getElem hi, hio])
        rw [e2]
        exact hprenot pre[i] (List.getElem_mem (by omega))
      · intro i a o h1 h2
        obtain ⟨mm, e1, e2⟩ := p3 i a o h1 h2
        rw [e2]; exact ⟨rfl, rfl, rfl, rfl, fun hy hx => beside_kept _ a f.yn f.xn rfl hy hx e1⟩
  | some hid =>
    have hsrc : src.grid.hidden = some hid := by simp [src, gridAfter, hh]
    obtain ⟨mb, c1, c2, c3⟩ := cascadeOne_fresh (src.maskVar hid) { name := name, dtype := v.dtype, var := w } size f.yn f.xn
      f.grid.ny f.grid.nx hid (by exact Ne.symm hne) rfl rfl rfl hwm (by rw [w2]; exact h.distinct) (by simp only [w3, w2])
      (by simp only [w2]; exact h.lat.1) (by simp only [w2]; exact h.lon.1) h.axes h.lat.2 h.lon.2
    obtain ⟨pre', p1, p2, p3⟩ := cascadeMask_ok (src.maskVar hid) pre (fun o ho =>
      cascadeOne_ok _ o size f.yn f.xn _ rfl (by simp only [h.lat.2, h.lon.2]; rfl) rfl h.axes (hprefit o ho).1 (hprefit o ho).2)
    refine ⟨{ src with vars := pre' ++ [DataVar.withMask { name := name, dtype := v.dtype, var := w } mb] }, pre', _, ?_, rfl, rfl, rfl, rfl, w2, w3,
      fun pos => ?_, fun pos hp => ?_, ?_, p2, ?_⟩
    · unfold fromEsmf
      simp only [hback, hsrc, hadd, cascadeMask_append p1 c1]
    · simp only [valueAt, DataVar.withMask, w2]; exact w4 pos
    · rw [c3 pos (by simp only [w2]; exact hp)]; simp [hides]
    · intro o ho
      obtain ⟨i, hi, hio⟩ := List.getElem_of_mem ho
      obtain ⟨mm, _, e2⟩ := p3 i pre[i] o (List.getElem?_eq_getElem (by omega)) (by rw [List.getElem?_eq_getElem hi, hio])
      rw [e2]
      exact hprenot pre[i] (List.getElem_mem (by omega))
    · intro i a o h1 h2
      obtain ⟨mm, e1, e2⟩ := p3 i a o h1 h2
      rw [e2]; exact ⟨rfl, rfl, rfl, rfl, fun hy hx => beside_kept _ a f.yn f.xn rfl hy hx e1⟩

theorem same_name {vs : List DataVar} (h : (vs.map (·.name)).Nodup) {a b : DataVar} (ha : a ∈ vs) (hb : b ∈ vs) (hn : a.name = b.name) :
    a = b := by
  obtain ⟨i, hi, hia⟩ := List.getElem_of_mem ha
  obtain ⟨j, hj, hjb⟩ := List.getElem_of_mem hb
  have hl : i < (vs.map (·.name)).length := by simpa using hi
  have : i = j := (List.getElem?_inj hl h).1 (by
    simp only [List.getElem?_map, List.getElem?_eq_getElem hi, List.getElem?_eq_getElem hj, hia, hjb, Option.map_some, hn])
  subst this
  rw [← hia, hjb]

/-- Variables with longitude first, put into the order of the grid. -/
theorem transpose2 {α : Type _} (c : Nat → Nat → α) (yn xn : String) (ny nx : Nat) (hyx : yn ≠ xn) :
    ∃ w, broadcastVariable (⟨[xn, yn], ⟨[nx, ny], fun idx => c (idx.getD 0 0) (idx.getD 1 0)⟩, none⟩ : Var α) [yn, xn] = .ok w ∧
      w.names = [yn, xn] ∧ w.value.shape = [ny, nx] ∧ ∀ j i, w.value.elem [j, i] = c i j := by
  obtain ⟨w, w1, w2, w3, w4, _⟩ := C16_broadcast_variable
    (⟨[xn, yn], ⟨[nx, ny], fun idx => c (idx.getD 0 0) (idx.getD 1 0)⟩, none⟩ : Var α) [yn, xn] (by simp [Ne.symm hyx])
    (List.Perm.swap yn xn []) (posOf yn xn ny nx) (by simp [posOf, Ne.symm hyx]) (by intro m hm; cases hm)
  refine ⟨w, w1, w2, by simpa [posOf, Ne.symm hyx] using w3, fun j i => ?_⟩
  have := w4 (posOf yn xn j i)
  simpa [posOf, Ne.symm hyx] using this

/-- The same with corners. -/
theorem transpose3 {α : Type _} (c : Nat → Nat → Nat → α) (yn xn cn : String) (ny nx n : Nat) (hyx : yn ≠ xn) (hy : yn ≠ cn) (hx : xn ≠ cn) :
    ∃ w, broadcastVariable (⟨[xn, yn, cn], ⟨[nx, ny, n], fun idx => c (idx.getD 0 0) (idx.getD 1 0) (idx.getD 2 0)⟩, none⟩ : Var α)
        [yn, xn, cn] = .ok w ∧
      w.names = [yn, xn, cn] ∧ w.value.shape = [ny, nx, n] ∧ ∀ j i k, w.value.elem [j, i, k] = c i j k := by
  obtain ⟨w, w1, w2, w3, w4, _⟩ := C16_broadcast_variable
    (⟨[xn, yn, cn], ⟨[nx, ny, n], fun idx => c (idx.getD 0 0) (idx.getD 1 0) (idx.getD 2 0)⟩, none⟩ : Var α) [yn, xn, cn]
    (by simp [Ne.symm hyx, hx, hy]) (List.Perm.swap yn xn [cn]) (posOf yn xn ny nx n)
    (by simp [posOf, Ne.symm hyx, Ne.symm hy, Ne.symm hx]) (by intro m hm; cases hm)
  refine ⟨w, w1, w2, by simpa [posOf, Ne.symm hyx, Ne.symm hy, Ne.symm hx] using w3, fun j i k => ?_⟩
  have := w4 (posOf yn xn j i k)
  simpa [posOf, Ne.symm hyx, Ne.symm hy, Ne.symm hx] using this

end Ocgis.Proofs
