import Verif.Proofs.VarShapeOps
/-!
# C106: value, mask, bounds and dimensions of a variable agree
-/
namespace Ocgis.Props
open Ocgis.VarShape Ocgis.Spec Ocgis.Proofs.VarShape

variable {α : Type}

/-- C106 (partial: all dimensions have sizes, nothing is forced, and no operation that sets dimensions or bounds is refused): after
any history, refused calls of the other operations included, every variable's value and mask have the lengths of its dimensions,
which are found in its collection. -/
theorem C106_history_partial (w : World α) (ops : List (Op α)) (h : AllFit w) (hc : CarefulOps w ops) : AllFit (run w ops) := by
  induction ops generalizing w with
  | nil => exact h
  | cons o os ih => exact ih _ (step_fit h o hc.1) hc.2

/-- A history: two dimensions, a variable with a mask, another in the same collection, its value taken, reshaped, bounds. -/
private def hist : List (Op Nat) := [
  .newDim "x" (some 2) none,
  .newDim "b" (some 2) none,
  .newDim "y" (some 3) none,
  .create "v" none (some ⟨[2], [7, 8]⟩) (some [.obj 0]) (some ⟨[2], [false, true]⟩),
  .create "vb" none (some ⟨[2, 2], [6, 8, 7, 9]⟩) (some [.obj 0, .obj 1]) none,
  .setBounds 0 (some 1) false,
  .create "u" (some 0) none (some [.str "x", .obj 2]) none,
  .setValue 2 (some ⟨[3, 2], [0, 0, 0, 0, 0, 0]⟩) none false,
  .getValue 2 5,
  .createMask 2,
  .setMask 0 (some ⟨[3], [true, true, true]⟩) false,
  .setMask 0 (some ⟨[2], [true, false]⟩) true,
  .reshape 2 [2, 0] 0]

private theorem hist_careful : CarefulOps ({} : World Nat) hist := by
  refine ⟨rfl, rfl, rfl, ⟨by decide, ?_, ?_⟩, ⟨by decide, ?_, ?_⟩, ⟨by decide, rfl⟩, ⟨by decide, ?_, ?_⟩, ⟨?_, ?_⟩, trivial, trivial, ?_, ?_, trivial, trivial⟩
  all_goals first
    | (intro a ha; cases ha; exact ⟨rfl, by decide⟩)
    | (intro a ha; cases ha)

example : CarefulOps ({} : World Nat) hist ∧ AllFit ({} : World Nat) ∧
    (run {} hist).vars.map (fun v => (v.dims, v.value, v.mask)) =
      [(some ["x"], some ⟨[2], [7, 8]⟩, some ⟨[2], [true, true]⟩),
       (some ["x", "b"], some ⟨[2, 2], [6, 8, 7, 9]⟩, some ⟨[2, 2], [true, true, true, true]⟩),
       (some ["y", "x"], some ⟨[3, 2], [5, 5, 5, 5, 5, 5]⟩, some ⟨[3, 2], [false, false, false, false, false, false]⟩)] :=
  ⟨hist_careful, by decide, by decide⟩

/-- C106: a value is accepted exactly when it has as many dimensions as the variable and the lengths of those that are not
unlimited.  A refused value changes nothing.  An accepted one is the variable's value, the variable's dimensions then have its
lengths, no other variable and no limited dimension is touched, and variables without an unlimited dimension object in common with
this one still fit. -/
theorem C106_value (w : World α) (i : Nat) (v : Vr α) (ds : List Dim) (a : NArr α) (hn : DimsNamed w) (hv : w.vars[i]? = some v)
    (hd : HasDims w v ds) (hnd : (v.dims.getD []).Nodup) :
    ((setValue w i (some a) none false).2 = none ↔ List.Forall₂ (fun n (d : Dim) => d.size = none ∨ n = d.len) a.shape ds) ∧
    ((setValue w i (some a) none false).2 ≠ none → (setValue w i (some a) none false).1 = w) ∧
    ((setValue w i (some a) none false).2 = none →
      (∃ ds', HasDims (setValue w i (some a) none false).1 v ds' ∧ ds'.map Dim.len = a.shape ∧ ds'.map Dim.name = ds.map Dim.name) ∧
      (setValue w i (some a) none false).1.vars = w.vars.set i { v with value := some a } ∧
      (setValue w i (some a) none false).1.colls = w.colls ∧
      (∀ r d, w.heap[r]? = some d → (d.size.isSome = true ∨ ¬ Uses w v r) → (setValue w i (some a) none false).1.heap[r]? = some d) ∧
      (∀ u, Fitting w u → (∀ r d, w.heap[r]? = some d → d.size = none → Uses w u r → ¬ Uses w v r) →
        Fitting (setValue w i (some a) none false).1 u)) := by
  obtain ⟨rs, hr, hf, ⟨h1, h2, h3, h4⟩ | ⟨h1, h2⟩⟩ := updateLengths_any w hn v hnd ds hd a
  · have hset : setValue w i (some a) none false = (({ w with heap := grow w.heap a.shape rs } : World α).modify i fun v => { v with value := some a }, none) := by
      simp only [setValue, hv, h2]
    have hkeep : ∀ r d, w.heap[r]? = some d → (d.size.isSome = true ∨ ¬ Uses w v r) → (grow w.heap a.shape rs)[r]? = some d := by
      intro r d hrd hor
      by_cases hin : r ∈ rs
      · have hsz : d.size.isSome = true := hor.resolve_right fun hu => hu ((uses_iff w v rs hr r).1 hin)
        obtain ⟨k, hk⟩ := List.getElem?_of_mem hin
        rw [List.forall₂_iff_get] at hf h3
        have hk1 : k < rs.length := by
          by_contra hcon
          rw [List.getElem?_eq_none (by omega)] at hk; cases hk
        have hkr : rs[k] = r := by rw [List.getElem?_eq_getElem hk1] at hk; simpa using hk
        have q1 := hf.2 k hk1 (by rw [← hf.1]; exact hk1)
        have q2 := h3.2 k hk1 (by rw [← h3.1]; exact hk1)
        simp only [List.get_eq_getElem, hkr] at q1 q2
        rw [hrd, Option.some.injEq] at q1
        rw [q2, List.getElem_zipWith, ← q1]
        have : d.size.isNone = false := by cases hs : d.size with | none => rw [hs] at hsz; cases hsz | some _ => rfl
        simp [grown, this]
      · rw [grow_other _ _ _ _ hin]; exact hrd
    rw [hset]
    refine ⟨⟨fun _ => h1, fun _ => rfl⟩, fun h => absurd rfl h, fun _ => ⟨⟨List.zipWith grown ds a.shape, ?_, h4, ?_⟩, ?_, rfl, hkeep, ?_⟩⟩
    · rw [hasDims_iff]
      refine ⟨rs, ?_, h3⟩
      rw [← hr]
      unfold World.refs
      exact findAll_congr w (({ w with heap := grow w.heap a.shape rs } : World α).modify i fun v => { v with value := some a }) rfl _ _
    · clear hf h2 h3 h4 hset hkeep hd
      generalize a.shape = ns at h1
      induction h1 with
      | nil => rfl
      | cons _ _ ih => simp only [List.zipWith_cons_cons, List.map_cons, ih, grown_name]
    · exact modify_set w.vars i _ v hv
    · intro u hu hno
      obtain ⟨es, e1, e2, e3, e4⟩ := hu
      refine ⟨es, ?_, e2, e3, e4⟩
      obtain ⟨qs, g1, g2⟩ := (hasDims_iff w u es).1 e1
      refine (hasDims_iff _ u es).2 ⟨qs, ?_, ?_⟩
      · rw [← g1]; unfold World.refs; exact findAll_congr w (({ w with heap := grow w.heap a.shape rs } : World α).modify i fun v => { v with value := some a }) rfl _ _
      · have hus : ∀ q ∈ qs, Uses w u q := fun q hq => (uses_iff w u qs g1 q).1 hq
        clear g1 e1 e2 e3 e4
        induction g2 with
        | nil => exact .nil
        | @cons q d qs es t _ ih =>
          refine .cons (hkeep q d t ?_) (ih fun x hx => hus x (List.mem_cons_of_mem _ hx))
          cases hs : d.size with
          | some m => exact Or.inl rfl
          | none => exact Or.inr (hno q d t hs (hus q List.mem_cons_self))
  · have hset : setValue w i (some a) none false = (w, some .valueError) := by simp only [setValue, hv, h2]
    rw [hset]
    exact ⟨⟨fun h => (by cases h), fun h => absurd h h1⟩, fun _ => rfl, fun h => (by cases h)⟩

/-- An unlimited dimension, a variable on it and one on another dimension of the collection. -/
private def unl : World Nat := run {} [
  .newDim "t" none none,
  .newDim "x" (some 2) none,
  .create "v" none none (some [.obj 0, .obj 1]) none,
  .create "u" (some 0) (some ⟨[2], [1, 2]⟩) (some [.obj 1]) none]

example : (setValue unl 0 (some ⟨[3, 2], [1, 2, 3, 4, 5, 6]⟩) none false).2 = none ∧
    (setValue unl 0 (some ⟨[3, 2], [1, 2, 3, 4, 5, 6]⟩) none false).1.heap.map Dim.len = [3, 2] ∧
    (setValue unl 0 (some ⟨[3, 3], []⟩) none false).2 = some .valueError ∧
    (∃ v, unl.vars[0]? = some v ∧ HasDims unl v [⟨"t", none, none⟩, ⟨"x", some 2, some 2⟩] ∧ (v.dims.getD []).Nodup) ∧ DimsNamed unl := by
  refine ⟨by decide, by decide, by decide, ⟨_, rfl, .cons ⟨_, _, rfl, rfl, rfl⟩ (.cons ⟨_, _, rfl, rfl, rfl⟩ .nil), by decide⟩, ?_⟩
  intro c hc p hp
  simp only [unl, run, step, create, collsFor, unstore, setDimsCore, takeDims, addDimension, newDim] at hc
  revert p
  have : c = [("t", 0), ("x", 1)] := by
    have h : unl.colls = [[("t", 0), ("x", 1)]] := by decide
    have : c ∈ unl.colls := hc
    rw [h] at this; simpa using this
  subst this
  intro p hp
  simp only [List.mem_cons, List.not_mem_nil, or_false] at hp
  rcases hp with rfl | rfl
  · exact ⟨_, rfl, rfl⟩
  · exact ⟨_, rfl, rfl⟩

/-- C106: a mask is accepted exactly when it has the lengths of the dimensions; a refused mask changes nothing; without bounds an
accepted one is the mask, or is united with the old one. -/
theorem C106_mask (w : World α) (i : Nat) (v : Vr α) (ds : List Dim) (m : NArr Bool) (update : Bool) (hv : w.vars[i]? = some v)
    (hd : HasDims w v ds) (hval : ∀ a, v.value = some a → a.shape = ds.map Dim.len) :
    (m.shape ≠ ds.map Dim.len → setMask w i (some m) update = (w, some .assertionError)) ∧
    (m.shape = ds.map Dim.len → v.bounds = none → (setMask w i (some m) update).2 = none ∧
      (setMask w i (some m) update).1 = { w with vars := w.vars.set i { v with mask := some (match update, v.mask with
        | true, some o => ⟨m.shape, List.zipWith (· || ·) m.data o.data⟩
        | _, _ => m) } }) := by
  have hs := shape_eq w v ds hd hval
  constructor
  · intro hne
    simp only [setMask, hv, hs, if_neg hne]
  · intro he hb
    have : setMask w i (some m) update = (w.modify i (fun v => { v with mask := some (if update then orOld v.mask m else m) }), none) := by
      simp only [setMask, hv, hs, if_pos he, maskBounds]
      rw [modify_get w i _ v hv]
      simp only [hb]
    rw [this]
    refine ⟨rfl, ?_⟩
    simp only [World.modify]
    rw [modify_set w.vars i _ v hv]
    cases update with
    | false => rfl
    | true => cases hm : v.mask with
      | none => simp [orOld]
      | some o => simp [orOld]

example : (setMask unl 1 (some ⟨[2], [true, false]⟩) false).2 = none ∧ (setMask unl 1 (some ⟨[3], []⟩) false) = (unl, some .assertionError) := by decide

/-- C106: asking for a value that is not there makes an array of the dimensions' lengths, if all are known; else it is refused and
nothing changes.  Asking again changes nothing. -/
theorem C106_get (w : World α) (i : Nat) (v : Vr α) (ds : List Dim) (fill fill' : α) (hv : w.vars[i]? = some v)
    (hd : HasDims w v ds) (hne : v.dims.getD [] ≠ []) (hnone : v.value = none) :
    ((∀ d ∈ ds, d.size ≠ none ∨ d.cur ≠ none) →
      getValue w i fill = ({ w with vars := w.vars.set i { v with value := some ⟨ds.map Dim.len, List.replicate ((ds.map Dim.len).foldr (· * ·) 1) fill⟩ } }, none) ∧
      getValue (getValue w i fill).1 i fill' = ((getValue w i fill).1, none)) ∧
    ((∃ d ∈ ds, d.size = none ∧ d.cur = none) → getValue w i fill = (w, some .valueError)) := by
  obtain ⟨rs, hr, hf⟩ := (hasDims_iff w v ds).1 hd
  have hany : (rs.any fun r => (w.heap[r]?.map fun d => d.size.isNone && d.cur.isNone).getD true) = true ↔ ∃ d ∈ ds, d.size = none ∧ d.cur = none := by
    clear hr hd
    induction hf with
    | nil => simp
    | cons g _ ih =>
      simp only [List.any_cons, Bool.or_eq_true, ih, List.mem_cons, g, Option.map_some, Option.getD_some, Bool.and_eq_true, Option.isNone_iff_eq_none]
      constructor
      · rintro (h | ⟨d, h1, h2⟩)
        · exact ⟨_, Or.inl rfl, h⟩
        · exact ⟨d, Or.inr h1, h2⟩
      · rintro ⟨d, rfl | h1, h2⟩
        · exact Or.inl h2
        · exact Or.inr ⟨d, h1, h2⟩
  have hnn : ¬ v.names = [] := hne
  constructor
  · intro hall
    have hno : ¬ (rs.any fun r => (w.heap[r]?.map fun d => d.size.isNone && d.cur.isNone).getD true) = true := by
      rw [hany]
      rintro ⟨d, h1, h2, h3⟩
      rcases hall d h1 with h | h
      · exact h h2
      · exact h h3
    have hg : getValue w i fill = ({ w with vars := w.vars.set i { v with value := some ⟨ds.map Dim.len, List.replicate ((ds.map Dim.len).foldr (· * ·) 1) fill⟩ } }, none) := by
      simp only [getValue, hv, hnone, if_neg hnn, hr, if_neg hno]
      rw [lens_eq w rs ds hf]
      simp only [World.modify, filled, count_eq]
      rw [modify_set w.vars i _ v hv]
    refine ⟨hg, ?_⟩
    rw [hg]
    have : i < w.vars.length := by
      by_contra hcon
      rw [List.getElem?_eq_none (by omega)] at hv; cases hv
    simp only [getValue, List.getElem?_set, this, if_true]
  · intro hex
    simp only [getValue, hv, hnone, if_neg hnn, hr, if_pos (hany.2 hex)]

example : (getValue unl 0 9).2 = some .valueError ∧
    (getValue (step unl (.create "z" none none (some [.obj 1]) none)).1 2 9).1.vars.map (·.value) = [none, some ⟨[2], [1, 2]⟩, some ⟨[2], [9, 9]⟩] := by decide

/-- C106: asking for a mask leaves one that is there; if there is none and there are no bounds, it makes one of the dimensions'
lengths with nothing masked. Value and dimensions stay. -/
theorem C106_get_mask (w : World α) (i : Nat) (v : Vr α) (ds : List Dim) (hv : w.vars[i]? = some v) (hd : HasDims w v ds)
    (hval : ∀ a, v.value = some a → a.shape = ds.map Dim.len) :
    (v.mask ≠ none → createMask w i = (w, none)) ∧
    (v.mask = none → v.bounds = none → createMask w i =
      ({ w with vars := w.vars.set i { v with mask := some ⟨ds.map Dim.len, List.replicate ((ds.map Dim.len).foldr (· * ·) 1) false⟩ } }, none)) := by
  have hs := shape_eq w v ds hd hval
  constructor
  · intro hm
    cases hmm : v.mask with
    | none => exact absurd hmm hm
    | some m => simp only [createMask, hv, hmm]
  · intro hm hb
    simp only [createMask, hv, hm, hs]
    have := (C106_mask w i v ds (filled (ds.map Dim.len) false) false hv hd hval).2 rfl hb
    refine Prod.ext ?_ this.1
    rw [this.2]
    simp only [filled, count_eq]

example : (createMask unl 1).1.vars.map (·.mask) = [none, some ⟨[2], [false, false]⟩] := by decide

/-- C106: a successful reshaping keeps the elements of value and mask in row-major order, under the lengths of the new dimensions;
no other variable is touched. -/
theorem C106_reshape (w : World α) (i : Nat) (v : Vr α) (a : NArr α) (rs : List Nat) (fill : α) (hv : w.vars[i]? = some v)
    (ha : v.value = some a) (hok : (reshape w i rs fill).2 = none) :
    ∃ names, List.Forall₂ (fun r n => ∃ d, w.heap[r]? = some d ∧ d.name = n) rs names ∧
      (reshape w i rs fill).1.vars = w.vars.set i { v with
        dims := some names, value := some ⟨rs.map w.len, a.data⟩, mask := v.mask.map fun m => ⟨rs.map w.len, m.data⟩ } := by
  have hlt : i < w.vars.length := by
    by_contra hcon
    rw [List.getElem?_eq_none (by omega)] at hv; cases hv
  have hmod : ∀ (w : World α) (f : Vr α → Vr α) (u : Vr α), w.vars[i]? = some u → (w.modify i f).vars = w.vars.set i (f u) := by
    intro w f u hu
    exact modify_set w.vars i f u hu
  have hul : ∀ (w1 : World α) (a : Option (NArr α)) (rs : Option (List Nat)), (updateLengths w1 a rs).1.vars = w1.vars := by
    intro w1 a rs
    unfold updateLengths
    split
    · rfl
    · split
      · rfl
      · split <;> rfl
  unfold reshape at hok ⊢
  rw [hv] at hok ⊢
  simp only at hok ⊢
  split at hok
  · cases hok
  · rename_i hb
    rw [if_neg hb]
    have hbn : v.bounds = none := by
      cases hh : v.bounds with
      | none => rfl
      | some b => rw [hh] at hb; simp at hb
    have hg : getValue w i fill = (w, none) := by simp only [getValue, hv, ha]
    rw [hg] at hok ⊢
    simp only [andThen, hv] at hok ⊢
    have g2 := modify_get w i (fun v => { v with mask := none, value := none }) _ hv
    have k2 := hmod w (fun v => { v with mask := none, value := none }) _ hv
    have hh2 : (w.modify i fun v => { v with mask := none, value := none }).heap = w.heap := rfl
    have hc2 : (w.modify i fun v => { v with mask := none, value := none }).colls = w.colls := rfl
    generalize (w.modify i fun v => { v with mask := none, value := none }) = w2 at g2 k2 hh2 hc2 hok ⊢
    rw [setDims_noBounds w2 i none _ g2 hbn] at hok ⊢
    have hs3 : setDimsCore w2 i none false = (w2.modify i fun v => { v with dims := none }, none) := by
      simp only [setDimsCore, g2, updateLengths]
    rw [hs3] at hok ⊢
    simp only at hok ⊢
    have g3 := modify_get w2 i (fun v => { v with dims := none }) _ g2
    have k3 := hmod w2 (fun v => { v with dims := none }) _ g2
    have hh3 : (w2.modify i fun v => { v with dims := none }).heap = w.heap := hh2
    generalize (w2.modify i fun v => { v with dims := none }) = w3 at g3 k3 hh3 hok ⊢
    cases hmask : (Option.mapM (reshapeTo (rs.map w.len)) v.mask : Res _) with
    | error e => rw [hmask] at hok; cases hok
    | ok mask =>
      rw [hmask] at hok
      simp only at hok ⊢
      have hmaskeq : mask = v.mask.map fun m => ⟨rs.map w.len, m.data⟩ := by
        cases hm0 : v.mask with
        | none => rw [hm0] at hmask; cases hmask; rfl
        | some m0 =>
          rw [hm0] at hmask
          simp only [Option.mapM] at hmask
          unfold reshapeTo at hmask
          split at hmask
          · simp [Functor.map, Except.map] at hmask
            rw [← hmask]; rfl
          · simp [Functor.map, Except.map] at hmask
      rw [setDims_noBounds w3 i _ _ g3 hbn] at hok ⊢
      unfold setDimsCore at hok ⊢
      rw [g3] at hok ⊢
      simp only at hok ⊢
      obtain ⟨w4, e4, ns, ht⟩ : ∃ x y z, takeDims v.coll (w3.shape { v with mask := none, value := none, dims := none }) false w3 0 (rs.map .obj) = ((x, y), z) := ⟨_, _, _, rfl⟩
      obtain ⟨t1, t2, t3, t4⟩ := takeDims_ok _ _ _ w3 w4 0 e4 ns ht
      rw [ht] at hok ⊢
      cases e4 with
      | some e => simp at hok
      | none =>
        simp only at hok ⊢
        have hnames := takeDims_names _ _ rs w3 w4 0 ns ht
        rw [hh3] at hnames
        refine ⟨ns, hnames, ?_⟩
        by_cases hnd : ns.Nodup
        · rw [if_pos hnd] at hok ⊢
          have g5 := modify_get w4 i (fun v => { v with dims := some ns }) { v with mask := none, value := none, dims := none } (by rw [t3]; exact g3)
          have k5 := hmod w4 (fun v => { v with dims := some ns }) { v with mask := none, value := none, dims := none } (by rw [t3]; exact g3)
          generalize (w4.modify i fun v => { v with dims := some ns }) = w5 at g5 k5 hok ⊢
          simp only at g5
          have hk6 := hul w5 none (w5.refs { v with mask := none, value := none, dims := some ns })
          obtain ⟨w6, e6, hu6⟩ : ∃ x y, updateLengths w5 none (w5.refs { v with mask := none, value := none, dims := some ns }) = (x, y) := ⟨_, _, rfl⟩
          rw [hu6] at hok hk6 ⊢
          cases e6 with
          | some e => simp at hok
          | none =>
            simp only [ha] at hok hk6 ⊢
            cases hra : reshapeTo (rs.map w.len) a with
            | error e => rw [hra] at hok; simp at hok
            | ok a' =>
              have ha' : a' = ⟨rs.map w.len, a.data⟩ := by
                unfold reshapeTo at hra
                split at hra
                · injection hra with hra; exact hra.symm
                · cases hra
              rw [hra] at hok
              simp only at hok ⊢
              unfold setValue at hok ⊢
              rw [hk6, g5] at hok ⊢
              simp only at hok ⊢
              have hk7 := hul w6 (some a') (w6.refs { v with mask := none, value := none, dims := some ns })
              obtain ⟨w7, e7, hu7⟩ : ∃ x y, updateLengths w6 (some a') (w6.refs { v with mask := none, value := none, dims := some ns }) = (x, y) := ⟨_, _, rfl⟩
              rw [hu7] at hok hk7 ⊢
              cases e7 with
              | some e => simp at hok
              | none =>
                simp only at hok hk7 ⊢
                have g7 : w7.vars[i]? = some { v with mask := none, value := none, dims := some ns } := by rw [hk7, hk6]; exact g5
                have g8 := modify_get w7 i (fun v => { v with value := some a' }) _ g7
                have k8 := hmod w7 (fun v => { v with value := some a' }) _ g7
                generalize (w7.modify i fun v => { v with value := some a' }) = w8 at g8 k8 hok ⊢
                have hall : w8.vars = w.vars.set i { v with mask := none, value := some a', dims := some ns } := by
                  rw [k8, hk7, hk6, k5, t3, k3, k2]
                  simp only [List.set_set]
                simp only at g8
                cases mask with
                | none =>
                  have : setMask w8 i none false = (w8.modify i fun v => { v with mask := none }, none) := by
                    simp only [setMask, g8, maskBounds, Bool.false_eq_true, if_false]
                    rw [modify_get w8 i _ _ g8]
                    simp only [hbn]
                  rw [this]
                  simp only
                  rw [hmod w8 _ _ g8, hall, ← hmaskeq, ha']
                  simp only [List.set_set]
                | some m =>
                  simp only [setMask, g8] at hok ⊢
                  cases hsh : w8.shape { v with mask := none, value := some a', dims := some ns } with
                  | error e => rw [hsh] at hok; simp at hok
                  | ok s =>
                    rw [hsh] at hok
                    simp only at hok ⊢
                    by_cases hms : m.shape = s
                    · rw [if_pos hms] at hok ⊢
                      have k9 := hmod w8 (fun v => { v with mask := some (if false = true then orOld v.mask m else m) }) _ g8
                      have g9 := modify_get w8 i (fun v => { v with mask := some (if false = true then orOld v.mask m else m) }) _ g8
                      generalize (w8.modify i fun v => { v with mask := some (if false = true then orOld v.mask m else m) }) = w9 at k9 g9 hok ⊢
                      have : maskBounds w9 i = (w9, none) := by simp only [maskBounds, g9, hbn]
                      rw [this]
                      simp only
                      rw [k9, hall, ← hmaskeq, ha']
                      simp
                    · rw [if_neg hms] at hok; simp at hok
        · rw [if_neg hnd] at hok; simp at hok

example : (reshape (run ({} : World Nat) hist) 2 [0, 2] 0).2 = none ∧
    (reshape (run ({} : World Nat) (hist ++ [.setValue 2 (some ⟨[3, 2], [1, 2, 3, 4, 5, 6]⟩) none false])) 2 [0, 2] 0).1.vars[2]?.map (·.value) =
      some (some ⟨[2, 3], [1, 2, 3, 4, 5, 6]⟩) := by decide

/-- C106: after a mask was set for a variable with bounds that have its dimensions and further ones, the bounds are masked exactly
where they were masked before or the variable is masked now. -/
theorem C106_bounds_masked (w : World α) (i b : Nat) (v bv : Vr α) (ds es : List Dim) (extra : List String) (m : NArr Bool)
    (hv : w.vars[i]? = some v) (hbv : w.vars[b]? = some bv) (hib : i ≠ b) (hb : v.bounds = some b)
    (hdims : bv.dims.getD [] = v.dims.getD [] ++ extra) (hex : extra ≠ []) (hnd : (bv.dims.getD []).Nodup)
    (hd : HasDims w v ds) (hbd : HasDims w bv (ds ++ es)) (hval : ∀ a, v.value = some a → a.shape = ds.map Dim.len)
    (hbval : ∀ a, bv.value = some a → a.shape = (ds ++ es).map Dim.len)
    (hm : OfShape m (ds.map Dim.len)) :
    (setMask w i (some m) false).2 = none ∧ ∃ bm, OfShape bm ((ds ++ es).map Dim.len) ∧
      (setMask w i (some m) false).1.vars = (w.vars.set i { v with mask := some m }).set b { bv with mask := some bm } ∧
      ∀ idx jdx, IdxIn (ds.map Dim.len) idx → IdxIn (es.map Dim.len) jdx →
        (bm.data[ravel bm.shape (idx ++ jdx)]? = some true ↔
          m.data[ravel m.shape idx]? = some true ∨ ∃ o, bv.mask = some o ∧ o.data[ravel o.shape (idx ++ jdx)]? = some true) := by
  have hs1 : ∀ f : Vr α → Vr α, HasDims (w.modify i f) v ds := fun _ => hd
  have hs2 : ∀ f : Vr α → Vr α, HasDims (w.modify i f) bv (ds ++ es) := fun _ => hbd
  have hlen : (v.dims.getD []).length = ds.length := hd.length_eq
  have hlen2 : (bv.dims.getD []).length = (ds ++ es).length := hbd.length_eq
  generalize hw1 : (w.modify i fun v => { v with mask := some (if false = true then orOld v.mask m else m) }) = w1
  have h1v : w1.vars[i]? = some { v with mask := some m } := by rw [← hw1, modify_get w i _ v hv]; rfl
  have hvars1 : w1.vars = w.vars.set i { v with mask := some m } := by rw [← hw1]; exact modify_set w.vars i _ v hv
  have h1b : w1.vars[b]? = some bv := by rw [hvars1, List.getElem?_set_ne hib]; exact hbv
  have hsh1 : w1.shape { v with mask := some m } = .ok (ds.map Dim.len) := by
    refine shape_eq w1 _ ds ?_ hval
    rw [← hw1]; exact hs1 _
  have hsh2 : w1.shape bv = .ok ((ds ++ es).map Dim.len) := by
    refine shape_eq w1 _ _ ?_ hbval
    rw [← hw1]; exact hs2 _
  have hset : setMask w i (some m) false = maskBounds w1 i := by
    simp only [setMask, hv, shape_eq w v ds hd hval, if_pos hm.1, hw1]
  obtain ⟨t, ht, hts, htn, htm⟩ := C34_cascade_partial (mvar { v with mask := some m } (ds.map Dim.len)) (mvar bv ((ds ++ es).map Dim.len)) false
    (fun idx => m.data.getD (ravel m.shape idx) false) rfl
    (Or.inl (by
      show v.dims.getD [] ≠ bv.dims.getD []
      rw [hdims]
      intro e
      have := congrArg List.length e
      rw [List.length_append] at this
      exact hex (List.length_eq_zero_iff.1 (by omega))))
    (by
      show (v.dims.getD []).Nodup
      rw [hdims] at hnd
      exact (List.nodup_append.1 hnd).1)
    hnd (by show (v.dims.getD []).length = _; rw [hlen]; simp [mvar]) (by show (bv.dims.getD []).length = _; rw [hlen2]; simp [mvar])
    (by
      show SameSizes (v.dims.getD []) (bv.dims.getD []) (ds.map Dim.len) ((ds ++ es).map Dim.len)
      rw [hdims, List.map_append]
      rw [hdims] at hnd
      have := (sameCoordinates_prefix (v.dims.getD []) extra (ds.map Dim.len) (ds.map Dim.len) (es.map Dim.len) hnd (by simp [hlen]) (by simp [hlen])).2 rfl
      exact this)
  have hmb : maskBounds w1 i = (w1.modify b fun bv => { bv with mask := some ⟨(ds ++ es).map Dim.len, (Ocgis.Masks.allIdx ((ds ++ es).map Dim.len)).map t.masked⟩ }, none) := by
    have hb1 : ({ v with mask := some m } : Vr α).bounds = some b := hb
    have hm1 : ({ v with mask := some m } : Vr α).mask = some m := rfl
    generalize ({ v with mask := some m } : Vr α) = v1 at h1v hsh1 ht hb1 hm1
    simp only [maskBounds, h1v, hb1, h1b, hm1, hsh1, hsh2, ht]
  rw [hset, hmb]
  refine ⟨rfl, ⟨(ds ++ es).map Dim.len, (Ocgis.Masks.allIdx ((ds ++ es).map Dim.len)).map t.masked⟩, ⟨rfl, ?_⟩, ?_, ?_⟩
  · rw [List.length_map, allIdx_length]
  · simp only [World.modify]
    rw [modify_set w1.vars b _ bv h1b, hvars1]
  · intro idx jdx hi hj
    have hij : IdxIn ((ds ++ es).map Dim.len) (idx ++ jdx) := by rw [List.map_append]; exact idxIn_append _ _ _ _ hi hj
    simp only
    rw [List.getElem?_map, allIdx_ravel _ _ hij, Option.map_some, Option.some.injEq, htm _ hij]
    have hA : (mvar bv ((ds ++ es).map Dim.len)).masked (idx ++ jdx) = true ↔ ∃ o, bv.mask = some o ∧ o.data[ravel o.shape (idx ++ jdx)]? = some true := by
      unfold Ocgis.Masks.MVar.masked mvar
      cases hmk : bv.mask with
      | none => simp
      | some o =>
        simp only [Option.map_some, getD_true]
        exact ⟨fun h => ⟨o, rfl, h⟩, fun ⟨o', e, h⟩ => by cases e; exact h⟩
    have hB : (∃ s, IdxIn (mvar { v with mask := some m } (ds.map Dim.len)).shape s ∧ m.data.getD (ravel m.shape s) false = true ∧
        SameCoordinates (mvar { v with mask := some m } (ds.map Dim.len)).names (mvar bv ((ds ++ es).map Dim.len)).names s (idx ++ jdx)) ↔
        m.data[ravel m.shape idx]? = some true := by
      have hnames : ∀ s, IdxIn (ds.map Dim.len) s → (SameCoordinates (v.dims.getD []) (bv.dims.getD []) s (idx ++ jdx) ↔ s = idx) := by
        intro s hs
        rw [hdims]
        rw [hdims] at hnd
        exact sameCoordinates_prefix _ _ _ _ _ hnd (by rw [hs.1]; simp [hlen]) (by rw [hi.1]; simp [hlen])
      constructor
      · rintro ⟨s, q1, q2, q3⟩
        have := (hnames s q1).1 q3
        subst this
        exact (getD_true _ _).1 q2
      · intro h
        exact ⟨idx, hi, (getD_true _ _).2 h, (hnames idx hi).2 rfl⟩
    rw [hA, hB]
    exact Or.comm

/-- Variable `v` with bounds `vb` of two per element, the second of which is masked already. -/
private def withBounds : World Nat := run {} [
  .newDim "x" (some 2) none,
  .newDim "b" (some 2) none,
  .create "v" none (some ⟨[2], [7, 8]⟩) (some [.obj 0]) none,
  .create "vb" none (some ⟨[2, 2], [6, 8, 7, 9]⟩) (some [.obj 0, .obj 1]) (some ⟨[2, 2], [false, true, false, false]⟩),
  .setBounds 0 (some 1) false]

example : (setMask withBounds 0 (some ⟨[2], [false, true]⟩) false).1.vars.map (·.mask) = [some ⟨[2], [false, true]⟩, some ⟨[2, 2], [false, true, true, true]⟩] ∧
    ∃ v bv, withBounds.vars[0]? = some v ∧ withBounds.vars[1]? = some bv ∧ v.bounds = some 1 ∧ bv.dims.getD [] = v.dims.getD [] ++ ["b"] ∧
      HasDims withBounds v [⟨"x", some 2, some 2⟩] ∧ HasDims withBounds bv ([⟨"x", some 2, some 2⟩] ++ [⟨"b", some 2, some 2⟩]) :=
  ⟨by decide, _, _, rfl, rfl, rfl, by decide, .cons ⟨_, _, rfl, rfl, rfl⟩ .nil, .cons ⟨_, _, rfl, rfl, rfl⟩ (.cons ⟨_, _, rfl, rfl, rfl⟩ .nil)⟩

/-- C106: a variable made from an array and as many different names of dimensions gets dimensions of these names with the
lengths of the array, in a collection of its own; no other variable, collection or dimension is touched. -/
theorem C106_created (w : World α) (name : String) (ns : List String) (a : NArr α) (hn : DimsNamed w) (hcoll : ∀ v ∈ w.vars, v.coll < w.colls.length)
    (hnd : ns.Nodup) (hlen : ns.length = a.shape.length) :
    ∃ w', create w name none (some a) (some (ns.map .str)) none = (w', none) ∧
      w'.vars = w.vars ++ [{ name := name, coll := w.colls.length, dims := some ns, value := some a }] ∧
      (∀ (r : Nat) d, w.heap[r]? = some d → w'.heap[r]? = some d) ∧ (∀ (c : Nat) l, w.colls[c]? = some l → w'.colls[c]? = some l) ∧
      HasDims w' { name := name, coll := w.colls.length, dims := some ns, value := some a } (List.zipWith (fun n m => ⟨n, some m, some m⟩) ns a.shape) := by
  have hun : unstore w.colls.length name w.vars = w.vars := by
    unfold unstore
    conv_rhs => rw [← List.map_id w.vars]
    refine List.map_congr_left fun v hv => ?_
    have := hcoll v hv
    rw [if_neg (by omega)]; rfl
  let v0 : Vr α := { name := name, coll := w.colls.length, value := some a }
  let w0 : World α := { w with colls := w.colls ++ [[]], vars := w.vars ++ [v0] }
  have hget : w0.vars[w.vars.length]? = some v0 := by simp [w0]
  have hcl : w0.colls[w.colls.length]? = some [] := by simp [w0]
  obtain ⟨l', q1, q2, q3⟩ := takeDims_new w.colls.length a.shape ns w0 0 [] hcl (by simpa using hnd) (by omega)
  rw [List.drop_zero, List.nil_append] at q1
  generalize hds : List.zipWith (fun n m => (⟨n, some m, some m⟩ : Dim)) ns a.shape = ds at q1 ⊢
  let w1 : World α := { heap := w.heap ++ ds, colls := w0.colls.set w.colls.length l', vars := w0.vars.set w.vars.length { v0 with dims := some ns } }
  have hdslen : ds.length = ns.length := by rw [← hds, List.length_zipWith]; omega
  have hw1c : w1.colls[w.colls.length]? = some l' := by simp [w1, w0]
  have hhas : ∀ w2 : World α, w2.heap = w1.heap → w2.colls = w1.colls → HasDims w2 { v0 with dims := some ns } ds := by
    intro w2 e1 e2
    unfold HasDims
    rw [List.forall₂_iff_get]
    refine ⟨by simp [hdslen], ?_⟩
    intro j h1 h2
    have h1' : j < ns.length := h1
    refine ⟨l', w.heap.length + j, by rw [e2]; exact hw1c, ?_, ?_⟩
    · have hj := q3 j ns[j] (List.getElem?_eq_getElem h1')
      have hlk : ∀ (l : List (String × Nat)) (n : String) (r : Nat), (l.map Prod.fst).Nodup → (n, r) ∈ l → l.lookup n = some r := by
        intro l
        induction l with
        | nil => intro n r _ h; cases h
        | cons p l ih =>
          intro n r hnd h
          obtain ⟨k, x⟩ := p
          rw [List.map_cons, List.nodup_cons] at hnd
          rcases List.mem_cons.1 h with h | hm
          · cases h; simp [List.lookup]
          · have : (n == k) = false := by
              rw [beq_eq_false_iff_ne]
              intro e
              subst e
              exact hnd.1 (List.mem_map.2 ⟨_, hm, rfl⟩)
            simp only [List.lookup, this]
            exact ih n r hnd.2 hm
      exact hlk l' _ _ (by rw [q2]; exact hnd) (List.mem_of_getElem? hj)
    · rw [e1]
      simp only [w1]
      rw [List.getElem?_append_right (by omega), Nat.add_sub_cancel_left]
      exact List.getElem?_eq_getElem h2
  have hnamed : DimsNamed w1 := by
    intro c hc p hp
    obtain ⟨j, hj⟩ := List.getElem?_of_mem hc
    simp only [w1, w0] at hj
    rw [List.getElem?_set] at hj
    by_cases hjc : w.colls.length = j
    · rw [if_pos hjc] at hj
      have hcl' : c = l' := by simp at hj; exact hj.symm
      subst hcl'
      obtain ⟨k, hk⟩ := List.getElem?_of_mem hp
      have hkl : k < ns.length := by
        rw [← q2, List.length_map]
        by_contra hcon
        rw [List.getElem?_eq_none (by omega)] at hk; cases hk
      have := q3 k ns[k] (List.getElem?_eq_getElem hkl)
      rw [hk, Option.some.injEq] at this
      subst this
      have hka : k < a.shape.length := by rw [← hlen]; exact hkl
      have hdk : ds[k]? = some ⟨ns[k], some (a.shape[k]'hka), some (a.shape[k]'hka)⟩ := by
        rw [← hds, List.getElem?_zipWith, List.getElem?_eq_getElem hkl, List.getElem?_eq_getElem hka]
      refine ⟨⟨ns[k], some (a.shape[k]'hka), some (a.shape[k]'hka)⟩, ?_, rfl⟩
      simp only [w1, w0]
      rw [List.getElem?_append_right (by omega), Nat.add_sub_cancel_left, hdk]
    · rw [if_neg hjc] at hj
      have hjl : j < w.colls.length := by
        by_contra hcon
        rw [List.getElem?_append_right (by omega), List.getElem?_eq_none (by simp; omega)] at hj
        cases hj
      rw [List.getElem?_append_left hjl] at hj
      obtain ⟨d, e1, e2⟩ := hn c (List.mem_of_getElem? hj) p hp
      refine ⟨d, ?_, e2⟩
      simp only [w1]
      rw [List.getElem?_append_left, e1]
      by_contra hcon
      rw [List.getElem?_eq_none (by omega)] at e1; cases e1
  obtain ⟨rs, hr, hf, ⟨h1, h2, h3, h4⟩ | ⟨h1, h2⟩⟩ := updateLengths_any w1 hnamed { v0 with dims := some ns } hnd ds (hhas w1 rfl rfl) a
  · have hgrow : grow w1.heap a.shape rs = w1.heap := by
      apply List.ext_getElem?
      intro r
      by_cases hin : r ∈ rs
      · obtain ⟨k, hk⟩ := List.getElem?_of_mem hin
        have hk1 : k < rs.length := by
          by_contra hcon
          rw [List.getElem?_eq_none (by omega)] at hk; cases hk
        have hkr : rs[k] = r := by rw [List.getElem?_eq_getElem hk1] at hk; simpa using hk
        rw [List.forall₂_iff_get] at hf h3
        have q4 := hf.2 k hk1 (by rw [← hf.1]; exact hk1)
        have q5 := h3.2 k hk1 (by rw [← h3.1]; exact hk1)
        simp only [List.get_eq_getElem, hkr] at q4 q5
        rw [q4, q5, List.getElem_zipWith]
        have hsz : (ds[k]'(by rw [← hf.1]; exact hk1)).size.isNone = false := by
          have hkd : k < ds.length := by rw [← hf.1]; exact hk1
          have hall : ∀ d ∈ ds, d.size.isNone = false := by
            intro d hd
            rw [← hds] at hd
            obtain ⟨j, hj⟩ := List.getElem?_of_mem hd
            rw [List.getElem?_zipWith] at hj
            cases h7 : ns[j]? with
            | none => simp [h7] at hj
            | some x => cases h8 : a.shape[j]? with
              | none => simp [h7, h8] at hj
              | some y => simp [h7, h8] at hj; rw [← hj]; rfl
          exact hall _ (List.getElem_mem hkd)
        simp [grown, hsz]
      · exact grow_other _ _ _ _ hin
    have hset : setDimsCore w0 w.vars.length (some (ns.map .str)) false = (w1, none) := by
      unfold setDimsCore
      rw [hget]
      have hshape : w0.shape v0 = .ok a.shape := rfl
      simp only [hshape]
      show (match takeDims w.colls.length (.ok a.shape) false w0 0 (ns.map .str) with
        | ((w, some e), _) => (w, some e)
        | ((w_1, none), names) => if names.Nodup then
            updateLengths (w_1.modify w.vars.length fun v => { v with dims := some names }) v0.value
              ((w_1.modify w.vars.length fun v => { v with dims := some names }).refs { v0 with dims := some names })
          else (w_1, some .valueError)) = _
      rw [q1]
      simp only [if_pos hnd]
      have hmod : (({ heap := w0.heap ++ ds, colls := w0.colls.set w.colls.length l', vars := w0.vars } : World α).modify w.vars.length fun v => { v with dims := some ns }) = w1 := by
        simp only [World.modify, w1]
        rw [modify_set w0.vars w.vars.length _ v0 hget]
      rw [hmod]
      show updateLengths w1 (some a) (w1.refs { v0 with dims := some ns }) = (w1, none)
      rw [h2, hgrow]
    refine ⟨w1, ?_, ?_, ?_, ?_, hhas w1 rfl rfl⟩
    · unfold create
      rw [if_neg (by simp)]
      simp only [collsFor, Option.getD_none, List.length_append, List.length_cons, List.length_nil]
      rw [if_neg (by omega), hun]
      show andThen (setDimsCore w0 w.vars.length (some (ns.map .str)) false) _ = _
      rw [hset]; rfl
    · simp [w1, w0, v0]
    · intro r d hrd
      simp only [w1]
      rw [List.getElem?_append_left, hrd]
      by_contra hcon
      rw [List.getElem?_eq_none (by omega)] at hrd; cases hrd
    · intro c l hcl'
      have : c < w.colls.length := by
        by_contra hcon
        rw [List.getElem?_eq_none (by omega)] at hcl'; cases hcl'
      simp only [w1, w0]
      rw [List.getElem?_set_ne (by omega), List.getElem?_append_left this, hcl']
  · exfalso
    apply h1
    rw [← hds]
    clear h1 h2 hr hf hhas hnamed q1 q2 q3 hdslen hw1c w1 hds hnd
    generalize a.shape = s at hlen
    induction ns generalizing s with
    | nil => cases s with
      | nil => exact .nil
      | cons => simp at hlen
    | cons n ns ih => cases s with
      | nil => simp at hlen
      | cons m s => exact .cons (Or.inr rfl) (ih s (by simpa using hlen))

example : (create withBounds "z" none (some ⟨[2, 3], [1, 2, 3, 4, 5, 6]⟩) (some (["x", "q"].map .str)) none).1.heap.map (fun d => (d.name, d.len)) =
    [("x", 2), ("b", 2), ("x", 2), ("q", 3)] ∧ (∀ v ∈ withBounds.vars, v.coll < withBounds.colls.length) := by decide

/-- C106: when dimensions are set, those of the bounds follow: the new ones, then what the bounds had beyond them. -/
theorem C106_bounds_follow (w w' : World α) (i b : Nat) (as : List DimArg) (v bv : Vr α) (h : AllFit w)
    (hm : NoBareMask w i) (hv : w.vars[i]? = some v) (hb : v.bounds = some b) (hbv : w.vars[b]? = some bv) (hne : b ≠ i)
    (hok : setDims w i (some as) false = (w', none)) :
    ∃ v' bv', w'.vars[i]? = some v' ∧ w'.vars[b]? = some bv' ∧
      bv'.dims.getD [] = v'.dims.getD [] ++ (bv.dims.getD []).drop (v'.dims.getD []).length := by
  unfold setDims at hok
  obtain ⟨w1, e1, hc⟩ : ∃ x y, setDimsCore w i (some as) false = (x, y) := ⟨_, _, rfl⟩
  rw [hc] at hok
  cases e1 with
  | some e => cases hok
  | none =>
    have h1 : AllFit w1 := by
      have := setDimsCore_fit h i (some as) hm (by rw [hc])
      rwa [hc] at this
    obtain ⟨x, ns, _, hv1, ho⟩ := setDimsCore_done hv hc
    have hbv1 : w1.vars[b]? = some bv := by rw [ho b hne]; exact hbv
    generalize hu : ({ v with dims := some ns } : Vr α) = u at hv1
    have hub : u.bounds = some b := by rw [← hu]; exact hb
    have hud : u.dims = some ns := by rw [← hu]
    simp only [hv1, hub, hbv1] at hok
    cases hr1 : w1.refs u with
    | none => simp only [hr1] at hok; cases hok
    | some rs =>
      cases hr2 : w1.refs bv with
      | none => simp only [hr1, hr2] at hok; cases hok
      | some bs =>
        simp only [hr1, hr2] at hok
        obtain ⟨y, ms, ht, hb', ho'⟩ := setDimsCore_done hbv1 hok
        have f1 := takeDims_names _ _ _ _ _ _ _ ht
        have g1 := refs_names h1.named hr1
        have g2 := refs_names h1.named hr2
        have hlen : rs.length = (u.dims.getD []).length := g1.length_eq
        refine ⟨u, { bv with dims := some ms }, ?_, hb', ?_⟩
        · rw [ho' i (Ne.symm hne)]
          exact hv1
        · refine forall₂_names_unique f1 (List.rel_append g1 ?_)
          rw [hlen]
          exact List.forall₂_drop _ g2

/-- Variable and bounds with another dimension object of the same length. -/
private def moved : World Nat := { withBounds with heap := withBounds.heap ++ [newDim "y" (some 2) none] }

example : (setDims moved 0 (some [.obj 2]) false).2 = none ∧
    (setDims moved 0 (some [.obj 2]) false).1.vars.map (·.dims) = [some ["y"], some ["y", "b"]] ∧ AllFit moved ∧ NoBareMask moved 0 :=
  ⟨by decide, by decide, by decide, fun v hv => .inl (by cases hv; rfl)⟩

/-! ## What does not hold -/

/-- C106: two variables that were made with the same unlimited dimension, each with a collection of its own: setting the value of
one changes the shape of the other, which no longer has that of its value. -/
theorem C106_shared_unlimited_counterexample : ∃ (w w' : World Nat), (∀ v ∈ w.vars, Fitting w v) ∧
    (∃ v u, w.vars = [v, u] ∧ v.coll ≠ u.coll) ∧ setValue w 0 (some ⟨[3], [1, 2, 3]⟩) none false = (w', none) ∧
    ∃ u, w.vars[1]? = some u ∧ w'.vars[1]? = some u ∧ Fitting w u ∧ ¬ Fitting w' u :=
  ⟨run {} [.newDim "t" none none, .create "v" none (some ⟨[2], [1, 2]⟩) (some [.obj 0]) none,
      .create "u" none (some ⟨[2], [3, 4]⟩) (some [.obj 0]) none],
    _, by decide, ⟨_, _, rfl, by decide⟩, rfl, _, rfl, rfl, by decide, by decide⟩

/-- C106: a longer value along an unlimited dimension leaves the mask as short as it was. -/
theorem C106_short_mask_counterexample : ∃ (w w' : World Nat), (∀ v ∈ w.vars, Fitting w v) ∧
    setValue w 0 (some ⟨[3], [1, 2, 3]⟩) none false = (w', none) ∧
    ∃ v, w'.vars = [v] ∧ v.mask = some ⟨[2], [true, false]⟩ ∧ w'.shape v = .ok [3] ∧ ¬ Fitting w' v :=
  ⟨run {} [.newDim "t" none none, .create "v" none (some ⟨[2], [1, 2]⟩) (some [.obj 0]) (some ⟨[2], [true, false]⟩)],
    _, by decide, rfl, _, rfl, rfl, rfl, by decide⟩

/-- C106: dimensions that are refused are the variable's dimensions nevertheless. -/
theorem C106_refused_dimensions_counterexample : ∃ (w w' : World Nat), AllFit w ∧ setDims w 0 (some [.obj 1]) false = (w', some .valueError) ∧
    ∃ v, w'.vars = [v] ∧ v.dims = some ["y"] ∧ w'.shape v = .ok [3] ∧ v.value = some ⟨[2], [1, 2]⟩ ∧ ¬ Fitting w' v :=
  ⟨run {} [.newDim "x" (some 2) none, .newDim "y" (some 3) none, .create "v" none (some ⟨[2], [1, 2]⟩) (some [.obj 0]) none],
    _, by decide, rfl, _, rfl, rfl, rfl, rfl, by decide⟩

/-- C106: `set_dimensions(None)` is refused for a variable with a value, which has no dimensions afterwards. -/
theorem C106_no_dimensions_counterexample : ∃ (w w' : World Nat), AllFit w ∧ setDims w 0 none false = (w', some .valueError) ∧
    ∃ v, w'.vars = [v] ∧ v.dims = none ∧ v.value = some ⟨[2], [1, 2]⟩ :=
  ⟨run {} [.newDim "x" (some 2) none, .create "v" none (some ⟨[2], [1, 2]⟩) (some [.obj 0]) none], _, by decide, rfl, _, rfl, rfl, rfl⟩

/-- C106: a reshaping that is refused loses the value. -/
theorem C106_refused_reshape_counterexample : ∃ (w w' : World Nat), AllFit w ∧ reshape w 0 [1] 0 = (w', some .valueError) ∧
    (∃ v, w.vars = [v] ∧ v.value = some ⟨[2], [1, 2]⟩) ∧ ∃ v, w'.vars = [v] ∧ v.value = none ∧ v.dims = some ["y"] :=
  ⟨run {} [.newDim "x" (some 2) none, .newDim "y" (some 3) none, .create "v" none (some ⟨[2], [1, 2]⟩) (some [.obj 0]) none],
    _, by decide, rfl, ⟨_, rfl, rfl⟩, _, rfl, rfl, rfl⟩

/-- C106: forced dimensions take the place of those of the same name, which other variables of the collection have. -/
theorem C106_forced_counterexample : ∃ (w w' : World Nat), AllFit w ∧ setDims w 0 (some [.obj 1]) true = (w', none) ∧
    ∃ u, w.vars[1]? = some u ∧ w'.vars[1]? = some u ∧ u.value = some ⟨[2], [1, 2]⟩ ∧ w'.shape u = .ok [3] ∧ ¬ Fitting w' u :=
  ⟨run {} [.newDim "x" (some 2) none, .newDim "x" (some 3) none, .create "v" none none (some [.obj 0]) none,
      .create "u" (some 0) (some ⟨[2], [1, 2]⟩) (some [.obj 0]) none],
    _, by decide, rfl, _, rfl, rfl, rfl, rfl, by decide⟩

/-- C106: a variable with a mask but no value takes dimensions of other lengths without complaint. -/
theorem C106_bare_mask_counterexample : ∃ (w w' : World Nat), AllFit w ∧ setDims w 0 (some [.obj 1]) false = (w', none) ∧
    ∃ v, w'.vars = [v] ∧ v.mask = some ⟨[2], [true, false]⟩ ∧ w'.shape v = .ok [3] ∧ ¬ Fitting w' v :=
  ⟨run {} [.newDim "x" (some 2) none, .newDim "y" (some 3) none, .create "v" none none (some [.obj 0]) (some ⟨[2], [true, false]⟩)],
    _, by decide, rfl, _, rfl, rfl, rfl, by decide⟩

/-- C106: bounds stay masked after the mask of the variable was taken away. -/
theorem C106_stale_bounds_mask_counterexample : ∃ (w w' : World Nat), AllFit w ∧ setMask w 0 none false = (w', none) ∧
    ∃ v bv, w'.vars = [v, bv] ∧ v.mask = none ∧ bv.mask = some ⟨[2, 2], [false, false, true, true]⟩ :=
  ⟨run {} [.newDim "x" (some 2) none, .newDim "b" (some 2) none, .create "v" none (some ⟨[2], [7, 8]⟩) (some [.obj 0]) (some ⟨[2], [false, true]⟩),
      .create "vb" none (some ⟨[2, 2], [6, 8, 7, 9]⟩) (some [.obj 0, .obj 1]) none, .setBounds 0 (some 1) false],
    _, by decide, rfl, _, _, rfl, rfl, rfl⟩

/-- C106: dimensions given to a variable take the place of the bounds' own dimension if there are more of them than before (the
values are not allocated). -/
theorem C106_bounds_dimension_counterexample : ∃ (w w' : World Nat), AllFit w ∧ setDims w 0 (some [.obj 0, .obj 2]) false = (w', none) ∧
    (∃ v bv, w.vars = [v, bv] ∧ bv.dims = some ["x", "b"]) ∧ ∃ v bv, w'.vars = [v, bv] ∧ bv.dims = some ["x", "y"] :=
  ⟨run {} [.newDim "x" (some 2) none, .newDim "b" (some 2) none, .newDim "y" (some 3) none, .create "v" none none (some [.obj 0]) none,
      .create "vb" none none (some [.obj 0, .obj 1]) none, .setBounds 0 (some 1) false],
    _, by decide, rfl, ⟨_, _, rfl, rfl⟩, _, _, rfl, rfl⟩

/-- A created dimension has the name and the size asked for, and is as long; one of size zero is as long as its current size, if one
is given, and an unlimited one keeps that. -/
theorem C106_dimension (w : World α) (n : String) (s c : Option Nat) :
    ∃ d, step w (.newDim n s c) = ({ w with heap := w.heap ++ [d] }, none) ∧ d.name = n ∧
      (s = none → d.size = none ∧ d.cur = c) ∧
      (∀ m, s = some m → m ≠ 0 → d.size = some m ∧ d.len = m) ∧
      (s = some 0 → c = none → d.size = some 0 ∧ d.len = 0) ∧
      (∀ k, s = some 0 → c = some k → d.size = some k ∧ d.len = k) := by
  refine ⟨newDim n s c, rfl, ?_⟩
  cases s with
  | none => simp [newDim]
  | some m => cases m <;> cases c <;> simp [newDim, Dim.len]

end Ocgis.Props
