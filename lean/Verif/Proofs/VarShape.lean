import Verif.Spec.VarShape
import Verif.Props.Masks
/-!
# Values, masks and dimensions of variables: lemmas
-/
namespace Ocgis.Proofs.VarShape
open Ocgis.VarShape Ocgis.Spec

variable {α : Type}

theorem count_eq (s : List Nat) : count s = s.foldr (· * ·) 1 := by
  induction s with
  | nil => rfl
  | cons n ns ih => simp [count, ih]

theorem find_iff (w : World α) (c : Nat) (n : String) (r : Nat) :
    w.find c n = some r ↔ ∃ l, w.colls[c]? = some l ∧ l.lookup n = some r := by
  unfold World.find World.collDims
  rw [List.getD_eq_getElem?_getD]
  cases h : w.colls[c]? with
  | none => simp
  | some l => simp

theorem findAll_congr (w w' : World α) (h : w'.colls = w.colls) (c : Nat) (ns : List String) : w'.findAll c ns = w.findAll c ns := by
  induction ns with
  | nil => rfl
  | cons n ns ih =>
    have : w'.find c n = w.find c n := by unfold World.find World.collDims; rw [h]
    simp only [World.findAll, ih, this]

/-- The dimensions, by the model's look-up. -/
theorem hasDims_iff (w : World α) (v : Vr α) (ds : List Dim) :
    HasDims w v ds ↔ ∃ rs, w.refs v = some rs ∧ List.Forall₂ (fun r d => w.heap[r]? = some d) rs ds := by
  unfold HasDims World.refs Vr.names
  generalize v.dims.getD [] = ns
  induction ns generalizing ds with
  | nil =>
    constructor
    · intro h; cases h; exact ⟨[], rfl, .nil⟩
    · rintro ⟨rs, h, h2⟩
      simp only [World.findAll, Option.some.injEq] at h
      subst h; cases h2; exact .nil
  | cons n ns ih =>
    constructor
    · intro h
      cases h with
      | cons h1 h2 =>
        obtain ⟨rs, e, f⟩ := (ih _).1 h2
        obtain ⟨c, r, hc, hl, hh⟩ := h1
        have hf : w.find v.coll n = some r := (find_iff w _ n r).2 ⟨c, hc, hl⟩
        exact ⟨r :: rs, by simp only [World.findAll, hf, e], .cons hh f⟩
    · rintro ⟨rs, h, h2⟩
      simp only [World.findAll] at h
      cases hf : w.find v.coll n with
      | none => simp [hf] at h
      | some r =>
        cases hfs : w.findAll v.coll ns with
        | none => simp [hf, hfs] at h
        | some rs' =>
          simp only [hf, hfs, Option.some.injEq] at h
          subst h
          cases h2 with
          | cons h1 h2 =>
            obtain ⟨l, hl1, hl2⟩ := (find_iff w _ n r).1 hf
            exact .cons ⟨l, r, hl1, hl2, h1⟩ ((ih _).2 ⟨rs', hfs, h2⟩)

theorem lens_eq (w : World α) (rs : List Nat) (ds : List Dim) (h : List.Forall₂ (fun r d => w.heap[r]? = some d) rs ds) :
    rs.map w.len = ds.map Dim.len := by
  induction h with
  | nil => rfl
  | cons h1 _ ih => simp [World.len, h1, ih]

/-- The model's shape is that of the dimensions, if the value fits. -/
theorem shape_eq (w : World α) (v : Vr α) (ds : List Dim) (h : HasDims w v ds) (hv : ∀ a, v.value = some a → a.shape = ds.map Dim.len) :
    w.shape v = .ok (ds.map Dim.len) := by
  obtain ⟨rs, e, f⟩ := (hasDims_iff w v ds).1 h
  unfold World.shape
  cases hd : v.dims with
  | none =>
    have : ds = [] := by
      unfold HasDims at h; rw [hd] at h; simp at h; exact h
    subst this
    cases hval : v.value with
    | none => rfl
    | some a => simp [hv a hval]
  | some ns => simp only [e, lens_eq w rs ds f]

/-- Nothing is lost from the dimensions. -/
structure Ext (w w' : World α) : Prop where
  heap : ∀ (r : Nat) (d : Dim), w.heap[r]? = some d → w'.heap[r]? = some d
  find : ∀ c n r, w.find c n = some r → w'.find c n = some r
  len : w'.colls.length = w.colls.length

theorem Ext.refl (w : World α) : Ext w w := ⟨fun _ _ h => h, fun _ _ _ h => h, rfl⟩

theorem Ext.trans {a b c : World α} (h : Ext a b) (g : Ext b c) : Ext a c :=
  ⟨fun r d e => g.heap r d (h.heap r d e), fun x n r e => g.find x n r (h.find x n r e), g.len.trans h.len⟩

theorem Ext.dims {w w' : World α} (h : Ext w w') {v : Vr α} {ds : List Dim} (hd : HasDims w v ds) : HasDims w' v ds := by
  unfold HasDims at hd ⊢
  generalize v.dims.getD [] = ns at hd ⊢
  induction hd with
  | nil => exact .nil
  | cons h1 _ ih =>
    obtain ⟨c, r, hc, hl, hh⟩ := h1
    obtain ⟨c', e1, e2⟩ := (find_iff w' _ _ r).1 (h.find _ _ r ((find_iff w _ _ r).2 ⟨c, hc, hl⟩))
    exact .cons ⟨c', r, e1, e2, h.heap _ _ hh⟩ ih

theorem Ext.fits {w w' : World α} (h : Ext w w') {v : Vr α} (hf : Fitting w v) : Fitting w' v := by
  obtain ⟨ds, h1, h2, h3, h4⟩ := hf
  exact ⟨ds, h.dims h1, h2, h3, h4⟩

/-- Dimensions are sized and stand under their own names. -/
structure Base (w : World α) : Prop where
  sized : ∀ d ∈ w.heap, d.size.isSome = true
  named : DimsNamed w

theorem lookup_append_left (l m : List (String × Nat)) (n : String) (r : Nat) (h : l.lookup n = some r) : (l ++ m).lookup n = some r := by
  induction l with
  | nil => simp at h
  | cons p l ih =>
    obtain ⟨k, v⟩ := p
    simp only [List.cons_append, List.lookup] at h ⊢
    cases hk : n == k <;> simp_all

/-- Adding a dimension, not forced. -/
theorem addDimension_ok (w w' : World α) (c r : Nat) (e : Option PyErr) (h : addDimension w c r false = (w', e)) :
    Ext w w' ∧ (DimsNamed w → DimsNamed w') ∧ w'.heap = w.heap ∧ w'.vars = w.vars ∧
      (e = none → c < w.colls.length → ∃ d r', w.heap[r]? = some d ∧ w'.find c d.name = some r' ∧ w.heap[r']? = some d) := by
  unfold addDimension at h
  cases hr : w.heap[r]? with
  | none =>
    rw [hr] at h; simp only [Prod.mk.injEq] at h
    obtain ⟨rfl, rfl⟩ := h
    exact ⟨.refl _, id, rfl, rfl, by simp⟩
  | some d =>
    rw [hr] at h
    simp only at h
    cases hf : w.find c d.name with
    | none =>
      simp only [hf, Prod.mk.injEq] at h
      obtain ⟨rfl, rfl⟩ := h
      refine ⟨⟨fun _ _ h => h, ?_, by simp⟩, ?_, rfl, rfl, ?_⟩
      · intro x n s hs
        rw [find_iff] at hs ⊢
        obtain ⟨l, h1, h2⟩ := hs
        by_cases hx : c = x
        · subst hx
          exact ⟨l ++ [(d.name, r)], by simp [h1], lookup_append_left _ _ _ _ h2⟩
        · exact ⟨l, by simp [hx, h1], h2⟩
      · intro hn l hl p hp
        obtain ⟨k, hk⟩ := List.getElem?_of_mem hl
        rw [List.getElem?_modify] at hk
        cases hkc : w.colls[k]? with
        | none => simp [hkc] at hk
        | some l0 =>
          simp only [hkc, Option.map_eq_map, Option.map_some, Option.some.injEq] at hk
          have hmem : l0 ∈ w.colls := List.mem_of_getElem? hkc
          by_cases hck : c = k
          · rw [if_pos hck] at hk
            subst hk
            rcases List.mem_append.1 hp with hp | hp
            · exact hn l0 hmem p hp
            · rw [List.mem_singleton] at hp; subst hp
              exact ⟨d, hr, rfl⟩
          · rw [if_neg hck] at hk
            subst hk
            exact hn _ hmem p hp
      · intro _ hlt
        refine ⟨d, r, rfl, ?_, hr⟩
        rw [find_iff]
        obtain ⟨l, hl⟩ : ∃ l, w.colls[c]? = some l := ⟨_, List.getElem?_eq_getElem hlt⟩
        refine ⟨l ++ [(d.name, r)], by simp [hl], ?_⟩
        have : l.lookup d.name = none := by
          cases hh : l.lookup d.name with
          | none => rfl
          | some s => rw [(find_iff w c d.name s).2 ⟨l, hl, hh⟩] at hf; cases hf
        rw [List.lookup_append, this]; simp
    | some s =>
      simp only [hf, Bool.false_eq_true, if_false] at h
      by_cases hs : w.heap[s]? = some d
      · rw [if_pos hs] at h
        simp only [Prod.mk.injEq] at h
        obtain ⟨rfl, rfl⟩ := h
        exact ⟨.refl _, id, rfl, rfl, fun _ _ => ⟨d, s, rfl, hf, hs⟩⟩
      · rw [if_neg hs] at h
        simp only [Prod.mk.injEq] at h
        obtain ⟨rfl, rfl⟩ := h
        exact ⟨.refl _, id, rfl, rfl, by simp⟩

theorem takeDims_ok (c : Nat) (shape : Res (List Nat)) (as : List DimArg) : ∀ (w w' : World α) (k : Nat) (e : Option PyErr) (ns : List String),
    takeDims c shape false w k as = ((w', e), ns) →
    Ext w w' ∧ (Base w → Base w') ∧ w'.vars = w.vars ∧
      (e = none → c < w.colls.length → ∀ n ∈ ns, ∃ r, w'.find c n = some r) := by
  induction as with
  | nil =>
    intro w w' k e ns h
    simp only [takeDims, Prod.mk.injEq] at h
    obtain ⟨⟨rfl, rfl⟩, rfl⟩ := h
    exact ⟨.refl _, id, rfl, by simp⟩
  | cons a as ih =>
    intro w w' k e ns h
    cases a with
    | obj r =>
      simp only [takeDims] at h
      obtain ⟨w1, e1⟩ : ∃ x y, addDimension w c r false = (x, y) := ⟨_, _, rfl⟩
      obtain ⟨e1, h1⟩ := e1
      obtain ⟨a1, a2, a3, a4, a5⟩ := addDimension_ok w w1 c r e1 h1
      rw [h1] at h
      cases e1 with
      | some err =>
        simp only [Prod.mk.injEq] at h
        obtain ⟨⟨rfl, rfl⟩, rfl⟩ := h
        exact ⟨a1, fun b => ⟨by rw [a3]; exact b.sized, a2 b.named⟩, a4, by simp⟩
      | none =>
        simp only [Prod.mk.injEq] at h
        obtain ⟨b1, b2, b3, b4⟩ := ih w1 w' (k + 1) e _ (Prod.ext h.1 rfl)
        refine ⟨a1.trans b1, fun b => b2 ⟨by rw [a3]; exact b.sized, a2 b.named⟩, b3.trans a4, ?_⟩
        intro he hc n hn
        obtain ⟨h11, h12⟩ := h
        rw [← h12] at hn
        rcases List.mem_cons.1 hn with rfl | hn
        · obtain ⟨d, r', g1, g2, -⟩ := a5 rfl hc
          rw [a3, g1]
          exact ⟨r', b1.find _ _ _ g2⟩
        · exact b4 he (by rw [a1.len]; exact hc) n hn
    | str n =>
      simp only [takeDims] at h
      cases hf : w.find c n with
      | some r =>
        simp only [hf, Prod.mk.injEq] at h
        obtain ⟨b1, b2, b3, b4⟩ := ih w w' (k + 1) e _ (Prod.ext h.1 rfl)
        refine ⟨b1, b2, b3, ?_⟩
        intro he hc m hm
        obtain ⟨h11, h12⟩ := h
        rw [← h12] at hm
        rcases List.mem_cons.1 hm with rfl | hm
        · exact ⟨r, b1.find _ _ _ hf⟩
        · exact b4 he hc m hm
      | none =>
        simp only [hf] at h
        cases shape with
        | error er =>
          simp only [Prod.mk.injEq] at h
          obtain ⟨⟨rfl, rfl⟩, rfl⟩ := h
          exact ⟨.refl _, id, rfl, by simp⟩
        | ok s =>
          simp only at h
          cases hk : s[k]? with
          | none =>
            simp only [hk, Prod.mk.injEq] at h
            obtain ⟨⟨rfl, rfl⟩, rfl⟩ := h
            exact ⟨.refl _, id, rfl, by simp⟩
          | some m =>
            simp only [hk] at h
            have hext : Ext w { w with heap := w.heap ++ [⟨n, some m, some m⟩] } :=
              ⟨fun r d hr => by
                have : r < w.heap.length := by
                  by_contra hc
                  rw [List.getElem?_eq_none (by omega)] at hr; cases hr
                simp only [List.getElem?_append_left this, hr], fun _ _ _ h => h, rfl⟩
            have hbase : Base w → Base { w with heap := w.heap ++ [⟨n, some m, some m⟩] } := fun b =>
              ⟨fun d hd => by
                rcases List.mem_append.1 hd with hd | hd
                · exact b.sized d hd
                · rw [List.mem_singleton] at hd; subst hd; rfl,
              fun l hl p hp => by
                obtain ⟨d, h1, h2⟩ := b.named l hl p hp
                exact ⟨d, hext.heap _ _ h1, h2⟩⟩
            obtain ⟨w1, e1, h1⟩ : ∃ x y, addDimension { w with heap := w.heap ++ [⟨n, some m, some m⟩] } c w.heap.length false = (x, y) := ⟨_, _, rfl⟩
            obtain ⟨a1, a2, a3, a4, a5⟩ := addDimension_ok _ w1 c _ e1 h1
            rw [h1] at h
            have hb1 : Base w → Base w1 := fun b => ⟨by rw [a3]; exact (hbase b).sized, a2 (hbase b).named⟩
            cases e1 with
            | some err =>
              simp only [Prod.mk.injEq] at h
              obtain ⟨⟨rfl, rfl⟩, rfl⟩ := h
              exact ⟨hext.trans a1, hb1, a4, by simp⟩
            | none =>
              simp only [Prod.mk.injEq] at h
              obtain ⟨b1, b2, b3, b4⟩ := ih w1 w' (k + 1) e _ (Prod.ext h.1 rfl)
              refine ⟨(hext.trans a1).trans b1, fun b => b2 (hb1 b), b3.trans a4, ?_⟩
              intro he hc n' hn
              obtain ⟨h11, h12⟩ := h
              rw [← h12] at hn
              rcases List.mem_cons.1 hn with rfl | hn
              · obtain ⟨d, r', g1, g2, -⟩ := a5 rfl hc
                simp at g1
                subst g1
                exact ⟨r', b1.find _ _ _ g2⟩
              · exact b4 he (by rw [a1.len]; exact hc) n' hn

/-- Sized dimensions do not grow. -/
theorem grow_sized (heap : List Dim) (h : ∀ d ∈ heap, d.size.isSome = true) (ns rs : List Nat) : grow heap ns rs = heap := by
  induction ns generalizing heap rs with
  | nil => simp [grow]
  | cons n ns ih =>
    cases rs with
    | nil => simp [grow]
    | cons r rs =>
      have : heap.modify r (fun d => if d.size.isNone then { d with cur := some n } else d) = heap := by
        apply List.ext_getElem?
        intro k
        rw [List.getElem?_modify]
        cases hk : heap[k]? with
        | none => simp
        | some d =>
          have := h d (List.mem_of_getElem? hk)
          have hn : d.size.isNone = false := by
            cases hd : d.size <;> simp_all
          by_cases hrk : r = k
          · simp only [if_pos hrk, hn, Option.map_eq_map, Option.map_some, Bool.false_eq_true, if_false]
          · simp [hrk]
      rw [grow, this]
      exact ih heap h rs

/-- The check, for sized dimensions. -/
theorem sameShape_sized (w : World α) (h : ∀ d ∈ w.heap, d.size.isSome = true) (ns rs : List Nat) (hs : sameShape w ns rs = true) :
    ∃ ds, List.Forall₂ (fun r d => w.heap[r]? = some d) rs ds ∧ ns = ds.map Dim.len := by
  induction ns generalizing rs with
  | nil =>
    cases rs with
    | nil => exact ⟨[], .nil, rfl⟩
    | cons r rs => simp [sameShape] at hs
  | cons n ns ih =>
    cases rs with
    | nil => simp [sameShape] at hs
    | cons r rs =>
      simp only [sameShape, Bool.and_eq_true] at hs
      obtain ⟨h1, h2⟩ := hs
      obtain ⟨ds, f, e⟩ := ih rs h2
      cases hr : w.heap[r]? with
      | none => simp [hr] at h1
      | some d =>
        have hn : d.size.isNone = false := by
          have := h d (List.mem_of_getElem? hr)
          cases hd : d.size <;> simp_all
        simp only [hr, hn, Bool.false_or, beq_iff_eq] at h1
        exact ⟨d :: ds, .cons hr f, by simp [h1, e]⟩

/-- For sized dimensions an update of the lengths changes nothing, and is refused unless the shapes are equal. -/
theorem updateLengths_sized (w w' : World α) (h : ∀ d ∈ w.heap, d.size.isSome = true) (value : Option (NArr α)) (rs : Option (List Nat))
    (e : Option PyErr) (hu : updateLengths w value rs = (w', e)) :
    w' = w ∧ (e = none → ∃ rs', rs = some rs' ∧ ∀ a, value = some a → ∃ ds, List.Forall₂ (fun r d => w.heap[r]? = some d) rs' ds ∧ a.shape = ds.map Dim.len) := by
  unfold updateLengths at hu
  cases rs with
  | none =>
    simp only [Prod.mk.injEq] at hu
    obtain ⟨rfl, rfl⟩ := hu
    exact ⟨rfl, by simp⟩
  | some rs =>
    cases value with
    | none =>
      simp only [Prod.mk.injEq] at hu
      obtain ⟨rfl, rfl⟩ := hu
      exact ⟨rfl, fun _ => ⟨rs, rfl, by simp⟩⟩
    | some a =>
      simp only at hu
      by_cases hs : sameShape w a.shape rs = true
      · rw [if_pos hs, grow_sized _ h] at hu
        simp only [Prod.mk.injEq] at hu
        obtain ⟨rfl, rfl⟩ := hu
        refine ⟨rfl, fun _ => ⟨rs, rfl, fun a' ha => ?_⟩⟩
        simp only [Option.some.injEq] at ha; subst ha
        exact sameShape_sized w h _ _ hs
      · rw [if_neg hs] at hu
        simp only [Prod.mk.injEq] at hu
        obtain ⟨rfl, rfl⟩ := hu
        exact ⟨rfl, by simp⟩

/-! ## The invariant -/

/-- All variables but one fit. -/
structure FitBut (w : World α) (i : Nat) : Prop where
  sized : ∀ d ∈ w.heap, d.size.isSome = true
  named : DimsNamed w
  fit : ∀ (j : Nat) (v : Vr α), j ≠ i → w.vars[j]? = some v → v.coll < w.colls.length ∧ Fitting w v

theorem AllFit_but {w : World α} (h : AllFit w) (i : Nat) : FitBut w i := ⟨h.sized, h.named, fun _ v _ hv => h.fit v (List.mem_of_getElem? hv)⟩

theorem fit_modify_but {w : World α} (i : Nat) (h : FitBut w i) (f : Vr α → Vr α)
    (hf : ∀ v, w.vars[i]? = some v → (f v).coll < w.colls.length ∧ Fitting w (f v)) : AllFit (w.modify i f) := by
  refine ⟨h.sized, h.named, ?_⟩
  intro v hv
  obtain ⟨k, hk⟩ := List.getElem?_of_mem hv
  simp only [World.modify] at hk
  rw [List.getElem?_modify] at hk
  cases hkv : w.vars[k]? with
  | none => simp [hkv] at hk
  | some u =>
    simp only [hkv, Option.map_eq_map, Option.map_some, Option.some.injEq] at hk
    by_cases hik : i = k
    · rw [if_pos hik] at hk
      subst hk
      exact hf u (by rw [hik]; exact hkv)
    · rw [if_neg hik] at hk
      subst hk
      exact h.fit k _ (fun e => hik e.symm) hkv

theorem fit_modify {w : World α} (h : AllFit w) (i : Nat) (f : Vr α → Vr α)
    (hf : ∀ v, w.vars[i]? = some v → (f v).coll < w.colls.length ∧ Fitting w (f v)) : AllFit (w.modify i f) :=
  fit_modify_but i (AllFit_but h i) f hf

theorem fitAt {w : World α} (h : AllFit w) {i : Nat} {v : Vr α} (hv : w.vars[i]? = some v) : v.coll < w.colls.length ∧ Fitting w v :=
  h.fit v (List.mem_of_getElem? hv)

theorem fit_ext {w w' : World α} (h : AllFit w) (he : Ext w w') (hb : Base w') (hv : w'.vars = w.vars) : AllFit w' :=
  ⟨hb.sized, hb.named, fun v hm => by
    rw [hv] at hm
    exact ⟨by rw [he.len]; exact (h.fit v hm).1, he.fits (h.fit v hm).2⟩⟩

theorem modify_get (w : World α) (i : Nat) (f : Vr α → Vr α) (v : Vr α) (h : w.vars[i]? = some v) : (w.modify i f).vars[i]? = some (f v) := by
  simp [World.modify, h]

theorem allIdx_length (s : List Nat) : (Ocgis.Masks.allIdx s).length = s.foldr (· * ·) 1 := by
  induction s with
  | nil => rfl
  | cons n ns ih =>
    simp only [Ocgis.Masks.allIdx, List.length_flatMap, List.length_map, List.foldr_cons, ih]
    have : ∀ (m : Nat) (l : List Nat), (l.map fun _ => m).sum = l.length * m := by
      intro m l
      induction l with
      | nil => simp
      | cons a l ih => simp [Nat.add_mul, Nat.add_comm]
    rw [this]; simp

/-- Masking the bounds keeps everything fitting. -/
theorem maskBounds_fit {w : World α} (h : AllFit w) (i : Nat) : AllFit (maskBounds w i).1 := by
  unfold maskBounds
  cases hv : w.vars[i]? with
  | none => exact h
  | some v =>
    simp only
    cases hb : v.bounds with
    | none => exact h
    | some b =>
      simp only
      cases hbv : w.vars[b]? with
      | none => exact h
      | some bv =>
        simp only
        cases hm : v.mask with
        | none => exact h
        | some m =>
          simp only
          obtain ⟨ds, d1, d2, d3, d4⟩ := (fitAt h hv).2
          obtain ⟨bs, b1, b2, b3, b4⟩ := (fitAt h hbv).2
          rw [shape_eq w v ds d1 (fun a ha => (d3 a ha).1), shape_eq w bv bs b1 (fun a ha => (b3 a ha).1)]
          simp only
          cases Ocgis.Masks.setMaskByVariable (mvar v (ds.map Dim.len)) (mvar bv (bs.map Dim.len)) false with
          | error e => exact h
          | ok t =>
            refine fit_modify h b _ fun u hu => ?_
            rw [hbv] at hu
            simp only [Option.some.injEq] at hu
            subst hu
            refine ⟨(fitAt h hbv).1, bs, b1, b2, b3, ?_⟩
            intro m' hm'
            simp only [Option.some.injEq] at hm'
            subst hm'
            exact ⟨rfl, by simp only [List.length_map]; exact allIdx_length _⟩

theorem orOld_shape (old : Option (NArr Bool)) (m : NArr Bool) (s : List Nat) (hm : OfShape m s) (ho : ∀ o, old = some o → OfShape o s) :
    OfShape (orOld old m) s := by
  unfold orOld
  cases old with
  | none => exact hm
  | some o =>
    obtain ⟨h1, h2⟩ := ho o rfl
    exact ⟨hm.1, by simp only [List.length_zipWith, hm.2, h2, Nat.min_self]⟩

theorem setMask_fit {w : World α} (h : AllFit w) (i : Nat) (mask : Option (NArr Bool)) (update : Bool)
    (hp : ∀ m, mask = some m → Proper m) : AllFit (setMask w i mask update).1 := by
  unfold setMask
  cases hv : w.vars[i]? with
  | none => exact h
  | some v =>
    obtain ⟨ds, d1, d2, d3, d4⟩ := (fitAt h hv).2
    cases mask with
    | none =>
      simp only
      apply maskBounds_fit
      by_cases hu : update = true
      · rw [if_pos hu]; exact h
      · rw [if_neg hu]
        refine fit_modify h i _ fun u hu => ?_
        rw [hv, Option.some.injEq] at hu; subst hu
        exact ⟨(fitAt h hv).1, ds, d1, d2, d3, by simp⟩
    | some m =>
      simp only
      rw [shape_eq w v ds d1 (fun a ha => (d3 a ha).1)]
      simp only
      by_cases hs : m.shape = ds.map Dim.len
      · rw [if_pos hs]
        apply maskBounds_fit
        refine fit_modify h i _ fun u hu => ?_
        rw [hv, Option.some.injEq] at hu; subst hu
        refine ⟨(fitAt h hv).1, ds, d1, d2, d3, ?_⟩
        intro m' hm'
        simp only [Option.some.injEq] at hm'
        subst hm'
        have hmp := hp m rfl
        have hms : OfShape m (ds.map Dim.len) := ⟨hs, by rw [← hs]; exact hmp.2⟩
        split
        · exact orOld_shape _ _ _ hms d4
        · exact hms
      · rw [if_neg hs]; exact h

theorem forall₂_unique {w : World α} {rs : List Nat} {ds es : List Dim} (h : List.Forall₂ (fun r d => w.heap[r]? = some d) rs ds)
    (g : List.Forall₂ (fun r d => w.heap[r]? = some d) rs es) : ds = es := by
  induction h generalizing es with
  | nil => cases g; rfl
  | cons h1 _ ih =>
    cases g with
    | cons g1 g2 =>
      rw [h1, Option.some.injEq] at g1
      rw [g1, ih g2]

theorem setValue_fit {w : World α} (h : AllFit w) (i : Nat) (value : Option (NArr α)) (mask : Option (NArr Bool)) (update : Bool)
    (hp : ∀ a, value = some a → Proper a) (hm : ∀ m, mask = some m → Proper m) : AllFit (setValue w i value mask update).1 := by
  unfold setValue
  cases hv : w.vars[i]? with
  | none => exact h
  | some v =>
    obtain ⟨ds, d1, d2, d3, d4⟩ := (fitAt h hv).2
    cases value with
    | none =>
      simp only
      split
      · refine fit_modify h i _ fun u hu => ?_
        rw [hv, Option.some.injEq] at hu; subst hu
        exact ⟨(fitAt h hv).1, ds, d1, d2, by simp, d4⟩
      · exact h
    | some a =>
      simp only
      obtain ⟨w1, e1, hu⟩ : ∃ x y, updateLengths w (some a) (w.refs v) = (x, y) := ⟨_, _, rfl⟩
      obtain ⟨rfl, hok⟩ := updateLengths_sized w w1 h.sized _ _ e1 hu
      rw [hu]
      cases e1 with
      | some e => exact h
      | none =>
        simp only
        obtain ⟨rs, hrs, hsh⟩ := hok rfl
        obtain ⟨es, f, hes⟩ := hsh a rfl
        obtain ⟨rs', hrs', f'⟩ := (hasDims_iff w1 v ds).1 d1
        rw [hrs, Option.some.injEq] at hrs'
        subst hrs'
        have hde := forall₂_unique f f'
        subst hde
        have h1 : AllFit (w1.modify i fun v => { v with value := some a }) := by
          refine fit_modify h i _ fun u hu => ?_
          rw [hv, Option.some.injEq] at hu; subst hu
          refine ⟨(fitAt h hv).1, es, d1, d2, ?_, d4⟩
          intro a' ha'
          simp only [Option.some.injEq] at ha'
          subst ha'
          exact ⟨hes, by rw [← hes]; exact (hp a rfl).2⟩
        cases mask with
        | none => exact h1
        | some m => exact setMask_fit h1 i (some m) update hm

theorem filled_proper {β : Type} (s : List Nat) (x : β) : Proper (filled s x) := by
  unfold Proper OfShape filled
  simp [count_eq]

theorem getValue_fit {w : World α} (h : AllFit w) (i : Nat) (fill : α) : AllFit (getValue w i fill).1 := by
  unfold getValue
  cases hv : w.vars[i]? with
  | none => exact h
  | some v =>
    obtain ⟨ds, d1, d2, d3, d4⟩ := (fitAt h hv).2
    obtain ⟨rs, hrs, f⟩ := (hasDims_iff w v ds).1 d1
    simp only
    cases hval : v.value with
    | some a => exact h
    | none =>
      simp only [hrs]
      split
      · exact h
      · split
        · exact h
        · refine fit_modify h i _ fun u hu => ?_
          rw [hv, Option.some.injEq] at hu; subst hu
          refine ⟨(fitAt h hv).1, ds, d1, d2, ?_, d4⟩
          intro a ha
          simp only [Option.some.injEq] at ha
          subst ha
          rw [← lens_eq w rs ds f]
          exact filled_proper _ _

theorem setDimsCore_but {w : World α} (i : Nat) (h : FitBut w i) (args : Option (List DimArg)) (v : Vr α) (hv : w.vars[i]? = some v)
    (hcoll : v.coll < w.colls.length) (hpa : ∀ a, v.value = some a → Proper a)
    (hpm : ∀ m, v.mask = some m → ∃ a, v.value = some a ∧ OfShape m a.shape)
    (hok : (setDimsCore w i args false).2 = none) : AllFit (setDimsCore w i args false).1 := by
  unfold setDimsCore at hok ⊢
  rw [hv] at hok ⊢
  simp only at hok ⊢
  · have key : ∀ (w1 : World α) (dims : Option (List String)) (rs : Option (List Nat)), FitBut w1 i → v.coll < w1.colls.length → w1.vars[i]? = some v →
        (dims.getD []).Nodup → (∀ rs', rs = some rs' → w1.refs { v with dims := dims } = some rs') → rs ≠ none →
        (updateLengths (w1.modify i fun v => { v with dims := dims }) v.value rs).2 = none →
        AllFit (updateLengths (w1.modify i fun v => { v with dims := dims }) v.value rs).1 := by
      intro w1 dims rs h1 hc1 hv1 hnd hrs hne he
      obtain ⟨w2, e2, hu⟩ : ∃ x y, updateLengths (w1.modify i fun v => { v with dims := dims }) v.value rs = (x, y) := ⟨_, _, rfl⟩
      obtain ⟨rfl, hok'⟩ := updateLengths_sized (w1.modify i fun v => { v with dims := dims }) w2 h1.sized _ _ e2 hu
      rw [hu] at he ⊢
      simp only at he
      subst he
      obtain ⟨rs', e, hsh⟩ := hok' rfl
      refine fit_modify_but i h1 _ fun u hu' => ?_
      rw [hv1, Option.some.injEq] at hu'; subst hu'
      refine ⟨hc1, ?_⟩
      have hr := hrs rs' e
      have hall : ∃ es, List.Forall₂ (fun r d => w1.heap[r]? = some d) rs' es := by
        have : ∀ (ns : List String) (rs' : List Nat), w1.findAll v.coll ns = some rs' → ∃ es, List.Forall₂ (fun r d => w1.heap[r]? = some d) rs' es := by
          intro ns
          induction ns with
          | nil => intro rs' hh; simp only [World.findAll, Option.some.injEq] at hh; subst hh; exact ⟨[], .nil⟩
          | cons n ns ih =>
            intro rs' hh
            simp only [World.findAll] at hh
            cases hf : w1.find v.coll n with
            | none => simp [hf] at hh
            | some r =>
              cases hfs : w1.findAll v.coll ns with
              | none => simp [hf, hfs] at hh
              | some rs'' =>
                simp only [hf, hfs, Option.some.injEq] at hh
                subst hh
                obtain ⟨es, hes⟩ := ih _ hfs
                obtain ⟨l, hl1, hl2⟩ := (find_iff w1 _ n r).1 hf
                have hmem : (n, r) ∈ l := by
                  clear hl1
                  induction l with
                  | nil => simp at hl2
                  | cons p l ihl =>
                    obtain ⟨k, x⟩ := p
                    simp only [List.lookup] at hl2
                    cases hk : n == k with
                    | true =>
                      simp only [hk, Option.some.injEq] at hl2
                      simp only [beq_iff_eq] at hk
                      subst hk; subst hl2; exact List.mem_cons_self
                    | false =>
                      simp only [hk] at hl2
                      exact List.mem_cons_of_mem _ (ihl hl2)
                obtain ⟨d, hd1, -⟩ := h1.named l (List.mem_of_getElem? hl1) _ hmem
                exact ⟨d :: es, .cons hd1 hes⟩
        exact this _ _ hr
      obtain ⟨es, hes⟩ := hall
      have hdims : HasDims w1 { v with dims := dims } es := (hasDims_iff w1 _ es).2 ⟨rs', hr, hes⟩
      refine ⟨es, hdims, hnd, ?_, ?_⟩
      · intro a ha
        obtain ⟨es', f, ee⟩ := hsh a ha
        have hee := forall₂_unique (w := w1) f hes
        subst hee
        exact ⟨ee, by rw [← ee]; exact (hpa a ha).2⟩
      · intro m hm
        obtain ⟨a, ha, hma⟩ := hpm m hm
        obtain ⟨es', f, ee⟩ := hsh a ha
        have hee := forall₂_unique (w := w1) f hes
        subst hee
        rw [← ee]
        exact hma
    cases args with
    | none =>
      exact key w none (some []) h hcoll hv (by simp) (fun rs' e => by simp only [Option.some.injEq] at e; subst e; rfl) (by simp) hok
    | some as =>
      simp only at hok ⊢
      obtain ⟨w1, e1, ns, ht⟩ : ∃ x y z, takeDims v.coll (w.shape v) false w 0 as = ((x, y), z) := ⟨_, _, _, rfl⟩
      obtain ⟨t1, t2, t3, -⟩ := takeDims_ok _ _ as w w1 0 e1 ns ht
      rw [ht] at hok ⊢
      have h1 : FitBut w1 i := ⟨(t2 ⟨h.sized, h.named⟩).sized, (t2 ⟨h.sized, h.named⟩).named, fun j u hj hu => by
        rw [t3] at hu
        exact ⟨by rw [t1.len]; exact (h.fit j u hj hu).1, t1.fits (h.fit j u hj hu).2⟩⟩
      cases e1 with
      | some e => simp at hok
      | none =>
        simp only at hok ⊢
        by_cases hn : ns.Nodup
        · rw [if_pos hn] at hok ⊢
          have hrs : ∀ rs', (w1.modify i fun v => { v with dims := some ns }).refs { v with dims := some ns } = some rs' →
              w1.refs { v with dims := some ns } = some rs' := fun rs' e => by
            unfold World.refs at e ⊢; rw [← e]; exact (findAll_congr w1 (w1.modify i fun v => { v with dims := some ns }) rfl _ _).symm
          refine key w1 (some ns) _ h1 (by rw [t1.len]; exact hcoll) (by rw [t3]; exact hv) (by simpa using hn) hrs ?_ hok
          intro hnone
          rw [hnone] at hok
          simp [updateLengths] at hok
        · rw [if_neg hn] at hok ⊢
          simp at hok

theorem setDimsCore_fit {w : World α} (h : AllFit w) (i : Nat) (args : Option (List DimArg))
    (hb : NoBareMask w i) (hok : (setDimsCore w i args false).2 = none) : AllFit (setDimsCore w i args false).1 := by
  cases hv : w.vars[i]? with
  | none => unfold setDimsCore; rw [hv]; exact h
  | some v =>
    obtain ⟨ds, d1, d2, d3, d4⟩ := (fitAt h hv).2
    refine setDimsCore_but i (AllFit_but h i) args v hv (fitAt h hv).1 (fun a ha => ?_) (fun m hm => ?_) hok
    · obtain ⟨e1, e2⟩ := d3 a ha
      exact ⟨rfl, by rw [e1]; exact e2⟩
    · rcases hb v hv with hb | hb
      · rw [hb] at hm; cases hm
      · obtain ⟨a, ha⟩ := Option.ne_none_iff_exists'.1 hb
        exact ⟨a, ha, by rw [(d3 a ha).1]; exact d4 m hm⟩

/-- What setting dimensions leaves of the other variables. -/
theorem setDimsCore_vars (w w' : World α) (i : Nat) (args : Option (List DimArg)) (e : Option PyErr) (h : setDimsCore w i args false = (w', e)) :
    ∀ j : Nat, w'.vars[j]? = w.vars[j]? ∨ ∃ (v : Vr α) (d : Option (List String)), w.vars[j]? = some v ∧ w'.vars[j]? = some { v with dims := d } := by
  have hul : ∀ (w1 : World α) (a : Option (NArr α)) (rs : Option (List Nat)), (updateLengths w1 a rs).1.vars = w1.vars := by
    intro w1 a rs
    unfold updateLengths
    split
    · rfl
    · split
      · rfl
      · split <;> rfl
  have hmod : ∀ (w1 : World α) (d : Option (List String)), w1.vars = w.vars → ∀ j : Nat,
      (w1.modify i fun v => { v with dims := d }).vars[j]? = w.vars[j]? ∨
      ∃ (v : Vr α) (d' : Option (List String)), w.vars[j]? = some v ∧ (w1.modify i fun v => { v with dims := d }).vars[j]? = some { v with dims := d' } := by
    intro w1 d e1 j
    simp only [World.modify, List.getElem?_modify, e1]
    cases hj : w.vars[j]? with
    | none => left; simp
    | some v =>
      by_cases hij : i = j
      · right; exact ⟨v, d, rfl, by simp [hij]⟩
      · left; simp [hij]
  unfold setDimsCore at h
  cases hv : w.vars[i]? with
  | none =>
    rw [hv] at h
    simp only [Prod.mk.injEq] at h
    obtain ⟨rfl, -⟩ := h
    exact fun j => Or.inl rfl
  | some v =>
    rw [hv] at h
    simp only at h
    cases args with
    | none =>
      simp only at h
      have := hul (w.modify i fun v => { v with dims := none }) v.value (some [])
      rw [h] at this
      simp only at this
      intro j
      rw [this]
      exact hmod w none rfl j
    | some as =>
      simp only at h
      obtain ⟨w1, e1, ns, ht⟩ : ∃ x y z, takeDims v.coll (w.shape v) false w 0 as = ((x, y), z) := ⟨_, _, _, rfl⟩
      obtain ⟨-, -, t3, -⟩ := takeDims_ok _ _ as w w1 0 e1 ns ht
      rw [ht] at h
      cases e1 with
      | some er =>
        simp only [Prod.mk.injEq] at h
        obtain ⟨rfl, -⟩ := h
        exact fun j => Or.inl (by rw [t3])
      | none =>
        simp only at h
        by_cases hn : ns.Nodup
        · rw [if_pos hn] at h
          have := hul (w1.modify i fun v => { v with dims := some ns }) v.value ((w1.modify i fun v => { v with dims := some ns }).refs { v with dims := some ns })
          rw [h] at this
          simp only at this
          intro j
          rw [this]
          exact hmod w1 (some ns) t3 j
        · rw [if_neg hn] at h
          simp only [Prod.mk.injEq] at h
          obtain ⟨rfl, -⟩ := h
          exact fun j => Or.inl (by rw [t3])

theorem bare_after (w w' : World α) (i b : Nat) (args : Option (List DimArg)) (e : Option PyErr) (h : setDimsCore w i args false = (w', e))
    (hb : NoBareMask w b) : NoBareMask w' b := by
  intro v hv
  rcases setDimsCore_vars w w' i args e h b with hh | ⟨u, d, h1, h2⟩
  · exact hb v (by rw [← hh]; exact hv)
  · rw [h2, Option.some.injEq] at hv
    subst hv
    exact hb u h1

theorem setDims_fit {w : World α} (h : AllFit w) (i : Nat) (args : Option (List DimArg))
    (hb : NoBareMask w i) (hbb : ∀ v b, w.vars[i]? = some v → v.bounds = some b → NoBareMask w b)
    (hok : (setDims w i args false).2 = none) : AllFit (setDims w i args false).1 := by
  unfold setDims at hok ⊢
  obtain ⟨w1, e1, hc⟩ : ∃ x y, setDimsCore w i args false = (x, y) := ⟨_, _, rfl⟩
  rw [hc] at hok ⊢
  cases e1 with
  | some e => simp at hok
  | none =>
    have h1 : AllFit w1 := by
      have := setDimsCore_fit h i args hb (by rw [hc])
      rwa [hc] at this
    simp only at hok ⊢
    cases hv : w1.vars[i]? with
    | none => exact h1
    | some v =>
      rw [hv] at hok
      simp only at hok ⊢
      cases hbo : v.bounds with
      | none => exact h1
      | some b =>
        rw [hbo] at hok
        simp only at hok ⊢
        have hnb : NoBareMask w1 b := by
          refine bare_after w w1 i b args none hc ?_
          rcases setDimsCore_vars w w1 i args none hc i with hh | ⟨u, d, g1, g2⟩
          · exact hbb v b (by rw [← hh]; exact hv) hbo
          · rw [g2, Option.some.injEq] at hv
            subst hv
            exact hbb u b g1 hbo
        cases args with
        | none => exact setDimsCore_fit h1 b none hnb hok
        | some as =>
          simp only at hok ⊢
          cases hbv : w1.vars[b]? with
          | none => exact h1
          | some bv =>
            rw [hbv] at hok
            simp only at hok ⊢
            cases hr1 : w1.refs v with
            | none => exact h1
            | some rs =>
              cases hr2 : w1.refs bv with
              | none => exact h1
              | some bs =>
                simp only [hr1, hr2] at hok ⊢
                exact setDimsCore_fit h1 b _ hnb hok

/-- Without value and mask, dimensions can be set; whatever happens, everything fits. -/
theorem setDimsCore_bare {w : World α} (h : AllFit w) (i : Nat) (args : Option (List DimArg)) (v : Vr α) (hv : w.vars[i]? = some v)
    (hval : v.value = none) (hm : v.mask = none) : AllFit (setDimsCore w i args false).1 := by
  by_cases hok : (setDimsCore w i args false).2 = none
  · exact setDimsCore_fit h i args (fun u hu => by rw [hv, Option.some.injEq] at hu; subst hu; exact Or.inl hm) hok
  · unfold setDimsCore at hok ⊢
    rw [hv] at hok ⊢
    cases args with
    | none => simp [hval, updateLengths] at hok
    | some as =>
      simp only at hok ⊢
      obtain ⟨w1, e1, ns, ht⟩ : ∃ x y z, takeDims v.coll (w.shape v) false w 0 as = ((x, y), z) := ⟨_, _, _, rfl⟩
      obtain ⟨t1, t2, t3, t4⟩ := takeDims_ok _ _ as w w1 0 e1 ns ht
      rw [ht] at hok ⊢
      have h1 : AllFit w1 := fit_ext h t1 (t2 ⟨h.sized, h.named⟩) t3
      cases e1 with
      | some e => exact h1
      | none =>
        simp only at hok ⊢
        by_cases hn : ns.Nodup
        · rw [if_pos hn] at hok
          exfalso
          have hfound := t4 rfl (fitAt h hv).1
          have hall : ∀ ms : List String, (∀ n ∈ ms, ∃ r, w1.find v.coll n = some r) → ∃ rs, w1.findAll v.coll ms = some rs := by
            intro ms
            induction ms with
            | nil => exact fun _ => ⟨[], rfl⟩
            | cons n ms ih =>
              intro hh
              obtain ⟨r, hr⟩ := hh n List.mem_cons_self
              obtain ⟨rs, hrs⟩ := ih fun n hn => hh n (List.mem_cons_of_mem _ hn)
              exact ⟨r :: rs, by simp only [World.findAll, hr, hrs]⟩
          obtain ⟨rs, hrs⟩ := hall ns hfound
          have hrefs : (w1.modify i fun v => { v with dims := some ns }).refs { v with dims := some ns } = some rs := by
            unfold World.refs
            rw [findAll_congr w1 (w1.modify i fun v => { v with dims := some ns }) rfl]
            exact hrs
          rw [hrefs] at hok
          simp [hval, updateLengths] at hok
        · rw [if_neg hn]
          exact h1

theorem setDims_noBounds (w : World α) (i : Nat) (args : Option (List DimArg)) (v : Vr α) (hv : w.vars[i]? = some v) (hb : v.bounds = none) :
    setDims w i args false = setDimsCore w i args false := by
  unfold setDims
  obtain ⟨w1, e1, hc⟩ : ∃ x y, setDimsCore w i args false = (x, y) := ⟨_, _, rfl⟩
  rw [hc]
  cases e1 with
  | some e => rfl
  | none =>
    simp only
    rcases setDimsCore_vars w w1 i args none hc i with hh | ⟨u, d, g1, g2⟩
    · rw [hh, hv]; simp only [hb]
    · rw [hv, Option.some.injEq] at g1
      subst g1
      rw [g2]; simp only [hb]

/-- After dimensions were set, value, mask and bounds are as before. -/
theorem setDimsCore_self (w : World α) (i : Nat) (args : Option (List DimArg)) (v : Vr α) (hv : w.vars[i]? = some v) :
    ∃ d, (setDimsCore w i args false).1.vars[i]? = some { v with dims := d } := by
  obtain ⟨w1, e1, hc⟩ : ∃ x y, setDimsCore w i args false = (x, y) := ⟨_, _, rfl⟩
  rw [hc]
  rcases setDimsCore_vars w w1 i args e1 hc i with hh | ⟨u, d, g1, g2⟩
  · exact ⟨v.dims, by rw [hh, hv]⟩
  · rw [hv, Option.some.injEq] at g1
    subst g1
    exact ⟨d, g2⟩

theorem reshape_fit {w : World α} (h : AllFit w) (i : Nat) (rs : List Nat) (fill : α) : AllFit (reshape w i rs fill).1 := by
  unfold reshape
  cases hv : w.vars[i]? with
  | none => exact h
  | some v0 =>
    simp only
    split
    · exact h
    · rename_i hb
      have hg := getValue_fit h i fill
      have hgv : ∃ a, (getValue w i fill).1.vars[i]? = some { v0 with value := a } := by
        unfold getValue
        rw [hv]
        simp only
        cases hval : v0.value with
        | some a => exact ⟨some a, by rw [hv, ← hval]⟩
        | none =>
          simp only
          split
          · exact ⟨none, by rw [hv, ← hval]⟩
          · cases w.refs v0 with
            | none => exact ⟨none, by rw [hv, ← hval]⟩
            | some rs' =>
              simp only
              split
              · exact ⟨none, by rw [hv, ← hval]⟩
              · exact ⟨_, modify_get w i _ v0 hv⟩
      obtain ⟨w1, e1, hgeq⟩ : ∃ x y, getValue w i fill = (x, y) := ⟨_, _, rfl⟩
      rw [hgeq] at hg hgv ⊢
      cases e1 with
      | some e => exact hg
      | none =>
        simp only [andThen]
        obtain ⟨a, hva⟩ := hgv
        simp only at hva
        rw [hva]
        simp only
        have h2 : AllFit (w1.modify i fun v => { v with mask := none, value := none }) := by
          refine fit_modify hg i _ fun u hu => ?_
          obtain ⟨ds, d1, d2, -, -⟩ := (fitAt hg hu).2
          exact ⟨(fitAt hg hu).1, ds, d1, d2, by simp, by simp⟩
        have hbn : v0.bounds = none := by
          cases hh : v0.bounds with
          | none => rfl
          | some b => rw [hh] at hb; simp at hb
        have g2 := modify_get w1 i (fun v => { v with mask := none, value := none }) _ hva
        generalize (w1.modify i fun v => { v with mask := none, value := none }) = w2 at h2 g2 ⊢
        rw [setDims_noBounds w2 i none _ g2 hbn]
        have h3 := setDimsCore_bare h2 i none _ g2 rfl rfl
        obtain ⟨d, g3⟩ := setDimsCore_self w2 i none _ g2
        obtain ⟨w3, e3, hc3⟩ : ∃ x y, setDimsCore w2 i none false = (x, y) := ⟨_, _, rfl⟩
        rw [hc3] at h3 g3 ⊢
        cases e3 with
        | some e => exact h3
        | none =>
          simp only at h3 g3 ⊢
          cases hmask : (Option.mapM (reshapeTo (rs.map w.len)) v0.mask : Res _) with
          | error e => exact h3
          | ok mask =>
            simp only
            rw [setDims_noBounds w3 i _ _ g3 hbn]
            have h4 := setDimsCore_bare h3 i (some (rs.map .obj)) _ g3 rfl rfl
            obtain ⟨w4, e4, hc4⟩ : ∃ x y, setDimsCore w3 i (some (rs.map .obj)) false = (x, y) := ⟨_, _, rfl⟩
            rw [hc4] at h4 ⊢
            cases e4 with
            | some e => exact h4
            | none =>
              simp only at h4 ⊢
              cases a with
              | none => exact h4
              | some a =>
                simp only
                cases hra : reshapeTo (rs.map w.len) a with
                | error e => exact h4
                | ok a' =>
                  simp only
                  have hproper : ∀ {β : Type} (x y : NArr β), Proper x → reshapeTo (rs.map w.len) x = .ok y → Proper y := by
                    intro β x y hx hxy
                    unfold reshapeTo at hxy
                    split at hxy
                    · rename_i hcnt
                      injection hxy with hxy
                      subst hxy
                      refine ⟨rfl, ?_⟩
                      simp only
                      rw [hx.2, ← count_eq, ← count_eq, hcnt]
                    · cases hxy
                  have hpa : Proper a := by
                    obtain ⟨ds, -, -, d3, -⟩ := (fitAt hg hva).2
                    obtain ⟨q1, q2⟩ := d3 a rfl
                    exact ⟨rfl, by rw [q1]; exact q2⟩
                  have h5 := setValue_fit h4 i (some a') none false (fun x hx => by rw [Option.some.injEq] at hx; subst hx; exact hproper a _ hpa hra) (by simp)
                  obtain ⟨w5, e5, hc5⟩ : ∃ x y, setValue w4 i (some a') none false = (x, y) := ⟨_, _, rfl⟩
                  rw [hc5] at h5 ⊢
                  cases e5 with
                  | some e => exact h5
                  | none =>
                    simp only at h5 ⊢
                    refine setMask_fit h5 i mask false ?_
                    intro m hm
                    subst hm
                    cases hm0 : v0.mask with
                    | none => rw [hm0] at hmask; cases hmask
                    | some m0 =>
                      have hpm0 : Proper m0 := by
                        obtain ⟨ds, -, -, -, d4⟩ := (fitAt hg hva).2
                        obtain ⟨q1, q2⟩ := d4 m0 hm0
                        exact ⟨rfl, by rw [q1]; exact q2⟩
                      rw [hm0] at hmask
                      simp only [Option.mapM] at hmask
                      cases hrm : reshapeTo (rs.map w.len) m0 with
                      | error e => rw [hrm] at hmask; cases hmask
                      | ok m1 =>
                        rw [hrm] at hmask
                        have : m1 = m := by
                          have := hmask
                          simp [Functor.map, Except.map] at this
                          exact this
                        subst this
                        exact hproper m0 _ hpm0 hrm

theorem unstore_get (c : Nat) (n : String) (vs : List (Vr α)) (j : Nat) (v : Vr α) (h : (unstore c n vs)[j]? = some v) :
    ∃ u b, vs[j]? = some u ∧ v = { u with stored := b } := by
  unfold unstore at h
  rw [List.getElem?_map] at h
  cases hj : vs[j]? with
  | none => rw [hj] at h; cases h
  | some u =>
    rw [hj] at h
    simp only [Option.map_some, Option.some.injEq] at h
    subst h
    split
    · exact ⟨u, false, rfl, rfl⟩
    · exact ⟨u, u.stored, rfl, rfl⟩

theorem fits_stored {w : World α} {v : Vr α} (b : Bool) (h : Fitting w v) : Fitting w { v with stored := b } := h

theorem ext_colls (w : World α) (l : List (List (String × Nat))) (vs : List (Vr α)) (v : Vr α) (hv : v.coll < w.colls.length) (h : Fitting w v) :
    Fitting { w with colls := w.colls ++ l, vars := vs } v := by
  obtain ⟨ds, h1, h2, h3, h4⟩ := h
  refine ⟨ds, ?_, h2, h3, h4⟩
  unfold HasDims at h1 ⊢
  simp only [List.getElem?_append_left hv]
  exact h1

theorem create_fit {w : World α} (h : AllFit w) (n : String) (coll : Option Nat) (value : Option (NArr α)) (dims : Option (List DimArg))
    (mask : Option (NArr Bool)) (hpv : ∀ a, value = some a → Proper a) (hpm : ∀ m, mask = some m → Proper m)
    (hok : (create w n coll value dims mask).2 = none) : AllFit (create w n coll value dims mask).1 := by
  unfold create at hok ⊢
  by_cases hc1 : value.isSome ∧ dims = none
  · rw [if_pos hc1]; exact h
  · rw [if_neg hc1] at hok ⊢
    simp only at hok ⊢
    by_cases hc2 : (collsFor w coll).length ≤ coll.getD w.colls.length
    · rw [if_pos hc2]; exact h
    · rw [if_neg hc2] at hok ⊢
      generalize hw0 : (⟨w.heap, collsFor w coll,
        unstore (coll.getD w.colls.length) n w.vars ++ [{ name := n, coll := coll.getD w.colls.length, value := value }]⟩ : World α) = w0 at hok ⊢
      have hlen : (unstore (coll.getD w.colls.length) n w.vars).length = w.vars.length := by simp [unstore]
      have hget : w0.vars[w.vars.length]? = some { name := n, coll := coll.getD w.colls.length, value := value } := by
        rw [← hw0]
        simp only
        rw [← hlen, List.getElem?_append_right (Nat.le_refl _)]
        simp
      have hbut : FitBut w0 w.vars.length := by
        subst hw0
        refine ⟨h.sized, ?_, ?_⟩
        · intro c hc p hp
          cases coll with
          | none =>
            simp only [collsFor] at hc
            rcases List.mem_append.1 hc with hc | hc
            · exact h.named c hc p hp
            · rw [List.mem_singleton] at hc; subst hc; cases hp
          | some k => exact h.named c hc p hp
        · intro j v hj hv
          simp only at hv
          have hjl : j < w.vars.length := by
            by_contra hcon
            rw [List.getElem?_append_right (by omega)] at hv
            have : j - (unstore (coll.getD w.colls.length) n w.vars).length ≠ 0 := by omega
            rw [List.getElem?_eq_none (by simp; omega)] at hv
            cases hv
          rw [List.getElem?_append_left (by omega)] at hv
          obtain ⟨u, b, hu, rfl⟩ := unstore_get _ _ _ _ _ hv
          have hf := fitAt h hu
          cases coll with
          | none =>
            refine ⟨?_, ext_colls w [[]] _ _ hf.1 (fits_stored b hf.2)⟩
            simp only [collsFor, List.length_append]
            have := hf.1
            omega
          | some k => exact ⟨hf.1, fits_stored b hf.2⟩
      have hcoll : coll.getD w.colls.length < w0.colls.length := by
        rw [← hw0]; simp only; exact Nat.lt_of_not_le hc2
      obtain ⟨w1, e1, hs⟩ : ∃ x y, setDimsCore w0 w.vars.length dims false = (x, y) := ⟨_, _, rfl⟩
      rw [hs] at hok ⊢
      cases e1 with
      | some e => simp [andThen] at hok
      | none =>
        have h1 := setDimsCore_but w.vars.length hbut dims _ hget hcoll hpv (by simp) (by rw [hs])
        rw [hs] at h1
        simp only [andThen]
        cases mask with
        | none => exact h1
        | some m => exact setMask_fit h1 _ (some m) false hpm

theorem addDims_ok (c : Nat) (rs : List Nat) : ∀ (w w' : World α) (e : Option PyErr), addDims c false w rs = (w', e) →
    Ext w w' ∧ (Base w → Base w') ∧ w'.vars = w.vars ∧ w'.heap = w.heap ∧
      (e = none → c < w.colls.length → ∀ r ∈ rs, ∃ d r', w.heap[r]? = some d ∧ w'.find c d.name = some r' ∧ w'.heap[r']? = some d) := by
  induction rs with
  | nil =>
    intro w w' e h
    simp only [addDims, Prod.mk.injEq] at h
    obtain ⟨rfl, rfl⟩ := h
    exact ⟨.refl _, id, rfl, rfl, by simp⟩
  | cons r rs ih =>
    intro w w' e h
    simp only [addDims] at h
    obtain ⟨w1, e1, h1⟩ : ∃ x y, addDimension w c r false = (x, y) := ⟨_, _, rfl⟩
    obtain ⟨a1, a2, a3, a4, a5⟩ := addDimension_ok w w1 c r e1 h1
    have hb : Base w → Base w1 := fun b => ⟨by rw [a3]; exact b.sized, a2 b.named⟩
    rw [h1] at h
    cases e1 with
    | some er =>
      simp only [Prod.mk.injEq] at h
      obtain ⟨rfl, rfl⟩ := h
      exact ⟨a1, hb, a4, a3, by simp⟩
    | none =>
      simp only at h
      obtain ⟨b1, b2, b3, b4, b5⟩ := ih w1 w' e h
      refine ⟨a1.trans b1, fun b => b2 (hb b), b3.trans a4, b4.trans a3, ?_⟩
      intro he hc r' hr'
      rcases List.mem_cons.1 hr' with rfl | hr'
      · obtain ⟨d, s, g1, g2, g3⟩ := a5 rfl hc
        exact ⟨d, s, g1, b1.find _ _ _ g2, (a1.trans b1).heap _ _ g3⟩
      · obtain ⟨d, s, g1, g2, g3⟩ := b5 he (by rw [a1.len]; exact hc) r' hr'
        exact ⟨d, s, by rw [← a3]; exact g1, g2, g3⟩

/-- A variable keeps fitting in a collection that has the same dimensions. -/
theorem fits_moved {w : World α} {v : Vr α} (c : Nat) (b : Bool) (hsame : ∀ n r, w.find v.coll n = some r → ∃ r', w.find c n = some r' ∧ w.heap[r']? = w.heap[r]?)
    (h : Fitting w v) : Fitting w { v with coll := c, stored := b } := by
  obtain ⟨ds, h1, h2, h3, h4⟩ := h
  refine ⟨ds, ?_, h2, h3, h4⟩
  unfold HasDims at h1 ⊢
  simp only
  generalize v.dims.getD [] = ns at h1
  clear h2 h3 h4
  induction h1 with
  | nil => exact .nil
  | cons g _ ih =>
    obtain ⟨l, r, hl, hr, hd⟩ := g
    obtain ⟨r', e1, e2⟩ := hsame _ r ((find_iff w _ _ r).2 ⟨l, hl, hr⟩)
    obtain ⟨l', g1, g2⟩ := (find_iff w c _ r').1 e1
    exact .cons ⟨l', r', g1, g2, by rw [e2]; exact hd⟩ ih

theorem moveVars_fit (c c2 : Nat) (js : List Nat) : ∀ (w w' : World α), AllFit w → c < w.colls.length →
    (∀ n r, w.find c2 n = some r → ∃ r', w.find c n = some r' ∧ w.heap[r']? = w.heap[r]?) →
    (∀ j ∈ js, ∀ v, w.vars[j]? = some v → v.coll = c2 ∨ v.coll = c) →
    moveVars c false w js = (w', none) → AllFit w' := by
  induction js with
  | nil =>
    intro w w' h _ _ _ hm
    simp only [moveVars, Prod.mk.injEq] at hm
    rw [← hm.1]; exact h
  | cons j js ih =>
    intro w w' h hc hsame hcoll hm
    simp only [moveVars] at hm
    cases hv : w.vars[j]? with
    | none =>
      rw [hv] at hm
      exact ih w w' h hc hsame (fun k hk => hcoll k (List.mem_cons_of_mem _ hk)) hm
    | some v =>
      rw [hv] at hm
      simp only at hm
      split at hm
      · simp at hm
      · have hvars : ∀ (k : Nat) (u : Vr α), ((unstore c v.name w.vars).modify j fun v => { v with coll := c, stored := true })[k]? = some u →
            ∃ u0 b, w.vars[k]? = some u0 ∧ (u = { u0 with stored := b } ∨ (k = j ∧ u = { u0 with coll := c, stored := true })) := by
          intro k u hu
          rw [List.getElem?_modify] at hu
          cases hk : (unstore c v.name w.vars)[k]? with
          | none => simp [hk] at hu
          | some u1 =>
            obtain ⟨u0, b, hu0, rfl⟩ := unstore_get _ _ _ _ _ hk
            simp only [hk, Option.map_eq_map, Option.map_some, Option.some.injEq] at hu
            by_cases hjk : j = k
            · rw [if_pos hjk] at hu
              exact ⟨u0, b, hu0, Or.inr ⟨hjk.symm, hu.symm⟩⟩
            · rw [if_neg hjk] at hu
              exact ⟨u0, b, hu0, Or.inl hu.symm⟩
        refine ih { w with vars := (unstore c v.name w.vars).modify j fun v => { v with coll := c, stored := true } } w' ⟨h.sized, h.named, ?_⟩ hc hsame ?_ hm
        · intro u hu
          obtain ⟨k, hk⟩ := List.getElem?_of_mem hu
          obtain ⟨u0, b, hu0, e | ⟨hkj, e⟩⟩ := hvars k u hk
          · subst e; exact ⟨(fitAt h hu0).1, fits_stored b (fitAt h hu0).2⟩
          · subst e
            refine ⟨hc, fits_moved c true ?_ (fitAt h hu0).2⟩
            rw [hkj] at hu0
            rcases hcoll j List.mem_cons_self u0 hu0 with e | e
            · rw [e]; exact hsame
            · rw [e]; exact fun n r hr => ⟨r, hr, rfl⟩
        · intro k hk u hu
          obtain ⟨u0, b, hu0, e | ⟨hkj, e⟩⟩ := hvars k u hu
          · subst e; exact hcoll k (List.mem_cons_of_mem _ hk) u0 hu0
          · subst e; exact Or.inr rfl

theorem mem_of_lookup (l : List (String × Nat)) (n : String) (r : Nat) (h : l.lookup n = some r) : (n, r) ∈ l := by
  induction l with
  | nil => simp at h
  | cons p l ih =>
    obtain ⟨k, x⟩ := p
    simp only [List.lookup] at h
    cases hk : n == k with
    | true =>
      simp only [hk, Option.some.injEq] at h
      simp only [beq_iff_eq] at hk
      subst hk; subst h; exact List.mem_cons_self
    | false =>
      simp only [hk] at h
      exact List.mem_cons_of_mem _ (ih h)

theorem setBounds_fit {w : World α} (h : AllFit w) (i : Nat) (b : Option Nat) (hok : (setBounds w i b false).2 = none) :
    AllFit (setBounds w i b false).1 := by
  unfold setBounds at hok ⊢
  cases hv : w.vars[i]? with
  | none => exact h
  | some v =>
    rw [hv] at hok
    simp only at hok ⊢
    cases b with
    | none =>
      simp only
      have h1 : AllFit (match v.bounds with | none => w | some b => w.modify b fun bv => { bv with stored := false }) := by
        cases v.bounds with
        | none => exact h
        | some b => exact fit_modify h b _ fun u hu => ⟨(fitAt h hu).1, (fitAt h hu).2⟩
      exact fit_modify h1 i _ fun u hu => ⟨(fitAt h1 hu).1, (fitAt h1 hu).2⟩
    | some b =>
      simp only at hok ⊢
      cases hbv : w.vars[b]? with
      | none => exact h
      | some bv =>
        rw [hbv] at hok
        simp only at hok ⊢
        have h1 : AllFit (w.modify i fun v => { v with bounds := some b }) := fit_modify h i _ fun u hu => ⟨(fitAt h hu).1, (fitAt h hu).2⟩
        generalize hw1 : (w.modify i fun v => { v with bounds := some b }) = w1 at h1 hok ⊢
        have hc1 : w1.colls = w.colls := by rw [← hw1]; rfl
        obtain ⟨w2, e2, ha⟩ : ∃ x y, addDims v.coll false w1 ((w1.collDims bv.coll).map Prod.snd) = (x, y) := ⟨_, _, rfl⟩
        obtain ⟨a1, a2, a3, a4, a5⟩ := addDims_ok _ _ w1 w2 e2 ha
        rw [ha] at hok ⊢
        have h2 : AllFit w2 := fit_ext h1 a1 (a2 ⟨h1.sized, h1.named⟩) a3
        cases e2 with
        | some e => exact h2
        | none =>
          simp only [andThen] at hok ⊢
          have hcl : v.coll < w1.colls.length := by rw [hc1]; exact (fitAt h hv).1
          obtain ⟨w3, e3, hm⟩ : ∃ x y, moveVars v.coll false w2 (w1.members bv.coll) = (x, y) := ⟨_, _, rfl⟩
          rw [hm] at hok ⊢
          cases e3 with
          | some e => simp at hok
          | none =>
            have h3 : AllFit w3 := by
              refine moveVars_fit v.coll bv.coll _ w2 w3 h2 (by rw [a1.len]; exact hcl) ?_ ?_ hm
              · intro n r hr
                by_cases heq : bv.coll = v.coll
                · rw [heq] at hr; exact ⟨r, hr, rfl⟩
                · have hr1 : w1.find bv.coll n = some r := by
                    have hlen : bv.coll < w1.colls.length := by rw [hc1]; exact (fitAt h hbv).1
                    cases hh : w1.find bv.coll n with
                    | some s =>
                      have := a1.find _ _ _ hh
                      rw [hr] at this; exact this.symm
                    | none =>
                      exfalso
                      have hcoll : ∀ (rs : List Nat) (x y : World α) (e : Option PyErr), addDims v.coll false x rs = (y, e) → y.colls[bv.coll]? = x.colls[bv.coll]? := by
                        intro rs
                        induction rs with
                        | nil => intro x y e hh; simp only [addDims, Prod.mk.injEq] at hh; rw [hh.1]
                        | cons r rs ih =>
                          intro x y e hh
                          simp only [addDims] at hh
                          have hone : (addDimension x v.coll r false).1.colls[bv.coll]? = x.colls[bv.coll]? := by
                            unfold addDimension
                            cases x.heap[r]? with
                            | none => rfl
                            | some d =>
                              simp only
                              cases x.find v.coll d.name with
                              | none =>
                                have hne : ¬ v.coll = bv.coll := fun e => heq e.symm
                                simp only [List.getElem?_modify, if_neg hne, Option.map_eq_map, Option.map_id']
                              | some s => simp only [Bool.false_eq_true, if_false]; split <;> rfl
                          obtain ⟨x1, e1, hx⟩ : ∃ p q, addDimension x v.coll r false = (p, q) := ⟨_, _, rfl⟩
                          rw [hx] at hh hone
                          cases e1 with
                          | some e => simp only [Prod.mk.injEq] at hh; rw [← hh.1]; exact hone
                          | none => simp only at hh; rw [ih x1 y e hh]; exact hone
                      have hcc := hcoll _ w1 w2 none ha
                      obtain ⟨l, g1, g2⟩ := (find_iff w2 _ n r).1 hr
                      rw [hcc] at g1
                      rw [(find_iff w1 _ n r).2 ⟨l, g1, g2⟩] at hh
                      cases hh
                  obtain ⟨l, hl, hlr⟩ := (find_iff w1 _ n r).1 hr1
                  have hmem := mem_of_lookup l n r hlr
                  obtain ⟨d, hd, hdn⟩ := h1.named l (List.mem_of_getElem? hl) _ hmem
                  have hin : r ∈ (w1.collDims bv.coll).map Prod.snd := by
                    unfold World.collDims
                    rw [List.getD_eq_getElem?_getD, hl]
                    exact List.mem_map_of_mem (f := Prod.snd) hmem
                  obtain ⟨d', r', q1, q2, q3⟩ := a5 rfl hcl r hin
                  simp only at hd hdn
                  rw [hd, Option.some.injEq] at q1
                  subst q1
                  rw [hdn] at q2
                  exact ⟨r', q2, by rw [q3, a4, hd]⟩
              · intro j hj u hu
                unfold World.members at hj
                rw [List.mem_filter] at hj
                rw [a3] at hu
                have := hj.2
                rw [hu] at this
                simp only [Bool.and_eq_true, beq_iff_eq] at this
                exact Or.inl this.2
            simp only at hok ⊢
            cases hv3 : w3.vars[i]? with
            | none => exact h3
            | some v3 =>
              simp only
              cases v3.value with
              | none => exact h3
              | some a =>
                refine setMask_fit h3 i v3.mask false ?_
                intro m hm
                obtain ⟨ds, -, -, -, d4⟩ := (fitAt h3 hv3).2
                obtain ⟨q1, q2⟩ := d4 m hm
                exact ⟨rfl, by rw [q1]; exact q2⟩

/-- Every careful operation keeps everything fitting. -/
theorem step_fit {w : World α} (h : AllFit w) (o : Op α) (hc : CarefulOp w o) : AllFit (step w o).1 := by
  cases o with
  | newDim n s c =>
    have hs : s.isSome = true := hc
    have hd : (newDim n s c).size.isSome = true := by
      cases s with
      | none => cases hs
      | some m => cases m <;> rfl
    have he : ∀ (r : Nat) (d : Dim), w.heap[r]? = some d → (w.heap ++ [newDim n s c])[r]? = some d := by
      intro r d hr
      have : r < w.heap.length := by
        by_contra hcon
        rw [List.getElem?_eq_none (by omega)] at hr; cases hr
      rw [List.getElem?_append_left this, hr]
    refine fit_ext h (w' := { w with heap := w.heap ++ [newDim n s c] }) ⟨he, fun _ _ _ h => h, rfl⟩ ⟨?_, ?_⟩ rfl
    · intro d hd'
      rcases List.mem_append.1 hd' with hd' | hd'
      · exact h.sized d hd'
      · rw [List.mem_singleton] at hd'; subst hd'; exact hd
    · intro l hl p hp
      obtain ⟨d, h1, h2⟩ := h.named l hl p hp
      exact ⟨d, he _ _ h1, h2⟩
  | create n c v d m => exact create_fit h n c v d m hc.2.1 hc.2.2 hc.1
  | setDims i a f =>
    obtain ⟨h1, h2, h3, h4⟩ := hc
    subst h2
    exact setDims_fit h i a h3 h4 h1
  | setMask i m u => exact setMask_fit h i m u hc
  | setValue i v m u => exact setValue_fit h i v m u hc.1 hc.2
  | getValue i f => exact getValue_fit h i f
  | removeValue i =>
    simp only [step, removeValue]
    cases hv : w.vars[i]? with
    | none => exact h
    | some v =>
      refine fit_modify h i _ fun u hu => ?_
      obtain ⟨ds, d1, d2, d3, d4⟩ := (fitAt h hu).2
      exact ⟨(fitAt h hu).1, ds, d1, d2, by simp, d4⟩
  | allocate i f =>
    simp only [step, allocate]
    cases hv : w.vars[i]? with
    | none => exact h
    | some v =>
      simp only
      cases w.refs v with
      | none => exact h
      | some rs => exact setValue_fit h i _ none false (fun a ha => by rw [Option.some.injEq] at ha; subst ha; exact filled_proper _ _) (by simp)
  | createMask i =>
    simp only [step, createMask]
    cases hv : w.vars[i]? with
    | none => exact h
    | some v =>
      simp only
      cases v.mask with
      | some m => exact h
      | none =>
        simp only
        cases w.shape v with
        | error e => exact h
        | ok s => exact setMask_fit h i _ false (fun a ha => by rw [Option.some.injEq] at ha; subst ha; exact filled_proper _ _)
  | reshape i ds f => exact reshape_fit h i ds f
  | setBounds i b f =>
    obtain ⟨h1, h2⟩ := hc
    subst h2
    exact setBounds_fit h i b h1

end Ocgis.Proofs.VarShape
