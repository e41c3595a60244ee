import Verif.Spec.Alias
/-!
# Lemmas
-/
namespace Ocgis.Alias

theorem viewOk_append {α : Type} {bufs : List (List α)} {v : View} (x : List (List α)) (h : ViewOk bufs v) : ViewOk (bufs ++ x) v := by
  obtain ⟨b, hb, hn, hi⟩ := h
  exact ⟨b, by rw [List.getElem?_append_left (List.getElem?_eq_some_iff.1 hb).1]; exact hb, hn, hi⟩

theorem viewOk_fresh {α : Type} (bufs : List (List α)) (xs : List α) : ViewOk (bufs ++ [xs]) (fresh bufs xs) :=
  ⟨xs, by simp [fresh], List.nodup_range, by simp [fresh]⟩

theorem read_append {α : Type} [Inhabited α] {bufs : List (List α)} {v : View} (x : List (List α)) (h : ViewOk bufs v) :
    readView (bufs ++ x) v = readView bufs v := by
  obtain ⟨b, hb, _⟩ := h
  simp [readView, List.getElem?_append_left (List.getElem?_eq_some_iff.1 hb).1]

theorem read_fresh {α : Type} [Inhabited α] (bufs : List (List α)) (xs : List α) : readView (bufs ++ [xs]) (fresh bufs xs) = xs := by
  apply List.ext_getElem?
  intro i
  simp only [readView, fresh, List.getElem?_map]
  by_cases h : i < xs.length
  · simp [h]
  · simp [h]

@[simp] theorem read_length {α : Type} [Inhabited α] (bufs : List (List α)) (v : View) : (readView bufs v).length = v.idx.length := by
  simp [readView]

theorem viewOk_poke {α : Type} {bufs : List (List α)} {v : View} (u : View) (p : Nat) (x : α) (h : ViewOk bufs v) :
    ViewOk (poke bufs u p x) v := by
  unfold poke
  split
  · exact h
  · obtain ⟨b, hb, hn, hi⟩ := h
    rename_i i _
    by_cases he : u.buf = v.buf
    · exact ⟨b.set i x, by simp [List.getElem?_modify, he, hb], hn, by simpa using hi⟩
    · exact ⟨b, by simp [List.getElem?_modify, he, hb], hn, hi⟩

theorem viewOk_pokes {α : Type} (u v : View) : ∀ (ps : List (Nat × α)) (bufs : List (List α)), ViewOk bufs v →
    ViewOk (pokes bufs u ps) v
  | [], _, h => h
  | q :: ps, bufs, h => by
    have := viewOk_pokes u v ps (poke bufs u q.1 q.2) (viewOk_poke u _ _ h)
    simpa [pokes] using this

theorem read_poke {α : Type} [Inhabited α] {bufs : List (List α)} {v : View} (p : Nat) (x : α) (h : ViewOk bufs v) :
    readView (poke bufs v p x) v = (readView bufs v).set p x := by
  obtain ⟨b, hb, hn, hi⟩ := h
  unfold poke
  split
  · rename_i hp
    rw [List.set_eq_of_length_le]
    simpa [readView] using hp
  · rename_i i hp
    obtain ⟨hlt, hpe⟩ := List.getElem?_eq_some_iff.1 hp
    apply List.ext_getElem?
    intro j
    simp only [readView, List.getElem?_map, List.getElem?_modify, List.getElem?_set, List.length_map, hb]
    by_cases hj : p = j
    · subst hj
      have hib : i < b.length := hi i (hpe ▸ List.getElem_mem hlt)
      simp [hlt, hpe, hib]
    · simp only [hj, if_false]
      cases hq : v.idx[j]? with
      | none => simp
      | some k =>
        have hne : i ≠ k := by
          rintro rfl
          obtain ⟨hj', hje⟩ := List.getElem?_eq_some_iff.1 hq
          rcases Nat.lt_trichotomy p j with hl | hl | hl
          · exact List.pairwise_iff_getElem.1 hn p j hlt hj' hl (hpe.trans hje.symm)
          · exact hj hl
          · exact List.pairwise_iff_getElem.1 hn j p hj' hlt hl (hje.trans hpe.symm)
        simp [List.getElem?_set, hne]

theorem read_poke_other {α : Type} [Inhabited α] {bufs : List (List α)} {u v : View} (p : Nat) (x : α) (h : Disjoint u v) :
    readView (poke bufs u p x) v = readView bufs v := by
  unfold poke
  split
  · rfl
  · rename_i i hp
    obtain ⟨hlt, hpe⟩ := List.getElem?_eq_some_iff.1 hp
    simp only [readView]
    apply List.map_congr_left
    intro k hk
    by_cases he : u.buf = v.buf
    · have hne : i ≠ k := fun e => h he i (hpe ▸ List.getElem_mem hlt) (e ▸ hk)
      simp only [List.getElem?_modify, he, if_true]
      cases bufs[v.buf]? with
      | none => rfl
      | some b => simp [List.getElem?_set, hne]
    · simp [List.getElem?_modify, he]

theorem read_pokes {α : Type} [Inhabited α] (v : View) : ∀ (ps : List (Nat × α)) (bufs : List (List α)), ViewOk bufs v →
    readView (pokes bufs v ps) v = putAll (readView bufs v) ps
  | [], _, _ => rfl
  | q :: ps, bufs, h => by
    have := read_pokes v ps (poke bufs v q.1 q.2) (viewOk_poke v _ _ h)
    rw [read_poke _ _ h] at this
    simpa [pokes, putAll] using this

theorem read_pokes_other {α : Type} [Inhabited α] (u v : View) (h : Disjoint u v) : ∀ (ps : List (Nat × α)) (bufs : List (List α)),
    readView (pokes bufs u ps) v = readView bufs v
  | [], _ => rfl
  | q :: ps, bufs => by
    have := read_pokes_other u v h ps (poke bufs u q.1 q.2)
    rw [read_poke_other _ _ h] at this
    simpa [pokes] using this

theorem putAll_length {α : Type} : ∀ (ps : List (Nat × α)) (l : List α), (putAll l ps).length = l.length
  | [], _ => rfl
  | q :: ps, l => by
    have := putAll_length ps (l.set q.1 q.2)
    simpa [putAll] using this

theorem disjoint_fresh {α : Type} {bufs : List (List α)} {v : View} (xs : List α) (h : ViewOk bufs v) : Disjoint (fresh bufs xs) v := by
  obtain ⟨b, hb, _⟩ := h
  intro he
  have := (List.getElem?_eq_some_iff.1 hb).1
  simp only [fresh] at he
  omega

theorem Disjoint.symm {u v : View} (h : Disjoint u v) : Disjoint v u := fun e i hi hj => h e.symm i hj hi

/-- What an operation on the object `a` leaves of the memory. -/
structure StepOk (w w' : World) (a : Nat) (va va' : VarObj) : Prop where
  obj : w'.objs = w.objs.set a va'
  name : va'.name = va.name
  ok : ObjOk w' va'
  others : ∀ v, ObjOk w v → ObjOk w' v
  colls : w'.colls = w.colls
  dicts : w'.dicts = w.dicts
  parent : va'.parent = va.parent
  valCell : va'.val = va.val ∨ ∀ v, ObjOk w v → Disjoint va'.val v.val
  maskCell : ∀ m, va'.mask = some m → va.mask = some m ∨ ∀ v mv, ObjOk w v → v.mask = some mv → Disjoint m mv
  readVal : ∀ v, ObjOk w v → Disjoint va.val v.val → readView w'.vals v.val = readView w.vals v.val
  readMask : ∀ v mv, ObjOk w v → v.mask = some mv → (∀ m, va.mask = some m → Disjoint m mv) →
    readView w'.masks mv = readView w.masks mv

/-- The operation has the effect it has on a variable that shares nothing. -/
def OwnOk (w w' : World) (va va' : VarObj) (op : Op) : Prop :=
  (⟨va'.name, readView w'.vals va'.val, va'.mask.map (readView w'.masks), va'.attrs, va'.bounds⟩ : Contents) =
    op.onAlone ⟨va.name, readView w.vals va.val, va.mask.map (readView w.masks), va.attrs, va.bounds⟩

theorem set_self {α : Type} {l : List α} {i : Nat} {x : α} (h : l[i]? = some x) : l.set i x = l := by
  obtain ⟨hi, rfl⟩ := List.getElem?_eq_some_iff.1 h
  simp

theorem stepOk_refl {w : World} {a : Nat} {va : VarObj} (h : w.objs[a]? = some va) (hok : ObjOk w va) : StepOk w w a va va :=
  ⟨(set_self h).symm, rfl, hok, fun _ h => h, rfl, rfl, rfl, .inl rfl, fun _ h => .inl h, fun _ _ _ => rfl, fun _ _ _ _ _ => rfl⟩

theorem objOk_masks {w : World} {v : VarObj} (x : List (List Bool)) (h : ObjOk w v) : ObjOk { w with masks := w.masks ++ x } v :=
  ⟨h.1, fun mv e => ⟨viewOk_append x (h.2 mv e).1, (h.2 mv e).2⟩⟩

theorem objOk_vals {w : World} {v : VarObj} (x : List (List Int)) (h : ObjOk w v) : ObjOk { w with vals := w.vals ++ x } v :=
  ⟨viewOk_append x h.1, h.2⟩

theorem objOk_objs {w : World} {v : VarObj} (x : List VarObj) (h : ObjOk w v) : ObjOk { w with objs := x } v := h

/-- Storing a mask. -/
theorem storeMask_ok {w : World} {a : Nat} {va : VarObj} (m : List Bool) (hok : ObjOk w va) (hm : m.length = va.val.idx.length) :
    StepOk w (storeMask w a va m) a va { va with mask := some (fresh w.masks m) } := by
  refine ⟨rfl, rfl, ⟨hok.1, ?_⟩, fun v h => objOk_masks [m] h, rfl, rfl, rfl, .inl rfl, ?_, fun _ _ _ => rfl, ?_⟩
  · rintro mv ⟨rfl⟩
    exact ⟨viewOk_fresh _ _, by simp [fresh, hm]⟩
  · rintro k ⟨rfl⟩
    exact .inr fun v mv hv e => disjoint_fresh _ (hv.2 mv e).1
  · intro v mv hv e _
    exact read_append _ (hv.2 mv e).1

/-- A change of the mask in place, then stored. -/
theorem pokeMask_ok {w : World} {a : Nat} {va : VarObj} (ms : List (Nat × Bool)) (hok : ObjOk w va) :
    ∃ va', StepOk w (doPokeMask w a va ms) a va va' ∧ va'.val = va.val ∧ va'.attrs = va.attrs ∧ va'.bounds = va.bounds ∧
      va'.mask.map (readView (doPokeMask w a va ms).masks) =
        some (putAll ((va.mask.map (readView w.masks)).getD (List.replicate va.val.idx.length false)) ms) ∧
      (doPokeMask w a va ms).vals = w.vals := by
  cases hmask : va.mask with
  | none =>
    have e : doPokeMask w a va ms = storeMask w a va (putAll (List.replicate va.val.idx.length false) ms) := by
      simp [doPokeMask, hmask, putAll]
    rw [e]
    refine ⟨_, storeMask_ok _ hok (by simp [putAll_length]), rfl, rfl, rfl, ?_, rfl⟩
    simp [storeMask, read_fresh]
  | some mv =>
    obtain ⟨hvm, hlen⟩ := hok.2 mv hmask
    have e : doPokeMask w a va ms =
        storeMask { w with masks := pokes w.masks mv ms } a va (readView (pokes w.masks mv ms) mv) := by
      simp [doPokeMask, hmask]
    rw [e]
    have hok2 : ∀ v, ObjOk w v → ObjOk { w with masks := pokes w.masks mv ms } v := fun v h =>
      ⟨h.1, fun u hu => ⟨viewOk_pokes mv u ms _ (h.2 u hu).1, (h.2 u hu).2⟩⟩
    have s := storeMask_ok (a := a) (readView (pokes w.masks mv ms) mv) (hok2 va hok) (by simp [hlen])
    refine ⟨_, ⟨s.obj, s.name, s.ok, fun v h => s.others v (hok2 v h), s.colls, s.dicts, s.parent, .inl rfl, ?_, fun _ _ _ => rfl, ?_⟩, rfl, rfl, rfl, ?_, rfl⟩
    · rintro k ⟨rfl⟩
      exact .inr fun v u hv hu => disjoint_fresh _ ((hok2 v hv).2 u hu).1
    · intro v u hv hu hd
      rw [s.readMask v u (hok2 v hv) hu hd]
      exact read_pokes_other _ _ (hd mv hmask) _ _
    · simp [storeMask, read_fresh, read_pokes mv ms _ hvm]

/-- Each operation. -/
theorem step_ok {w : World} {a : Nat} {va : VarObj} (op : Op) (h : w.objs[a]? = some va) (hok : ObjOk w va) :
    ∃ va', StepOk w (step w a op) a va va' ∧ OwnOk w (step w a op) va va' op := by
  cases op with
  | setValue xs =>
    simp only [step, h, doSetValue]
    by_cases hx : xs.length = va.val.idx.length
    · rw [if_pos hx]
      refine ⟨_, ⟨rfl, rfl, ⟨viewOk_fresh _ _, ?_⟩, fun v hv => objOk_vals [xs] hv, rfl, rfl, rfl, .inr fun v hv => disjoint_fresh _ hv.1,
        fun m e => .inl e, fun v hv _ => read_append _ hv.1, fun _ _ _ _ _ => rfl⟩, ?_⟩
      · intro mv e
        refine ⟨(hok.2 mv e).1, ?_⟩
        rw [(hok.2 mv e).2]; simp [fresh, hx]
      · simp [OwnOk, Op.onAlone, hx, read_fresh]
    · rw [if_neg hx]
      exact ⟨va, stepOk_refl h hok, by simp [OwnOk, Op.onAlone, hx]⟩
  | setMask m =>
    cases m with
    | none =>
      simp only [step, h, doSetMask]
      exact ⟨{ va with mask := none }, ⟨rfl, rfl, ⟨hok.1, fun _ e => by cases e⟩, fun _ hv => hv, rfl, rfl, rfl, .inl rfl, fun _ e => by (cases e),
        fun _ _ _ => rfl, fun _ _ _ _ _ => rfl⟩, by simp [OwnOk, Op.onAlone]⟩
    | some m =>
      simp only [step, h, doSetMask]
      by_cases hx : m.length = va.val.idx.length
      · rw [if_pos hx]
        exact ⟨_, storeMask_ok m hok hx, by simp [OwnOk, Op.onAlone, hx, storeMask, read_fresh]⟩
      · rw [if_neg hx]
        exact ⟨va, stepOk_refl h hok, by simp [OwnOk, Op.onAlone, hx]⟩
  | updateMask m =>
    simp only [step, h, doUpdateMask]
    by_cases hx : m.length = va.val.idx.length
    · rw [if_pos hx]
      cases hmask : va.mask with
      | none =>
        refine ⟨_, storeMask_ok m hok hx, by simp [OwnOk, Op.onAlone, hx, storeMask, read_fresh, hmask]⟩
      | some mv =>
        refine ⟨_, storeMask_ok _ hok ?_, by simp [OwnOk, Op.onAlone, hx, storeMask, read_fresh, hmask]⟩
        simp [hx, (hok.2 mv hmask).2]
    · rw [if_neg hx]
      exact ⟨va, stepOk_refl h hok, by simp [OwnOk, Op.onAlone, hx]⟩
  | assign ps ms =>
    have hok2 : ∀ v, ObjOk w v → ObjOk { w with vals := pokes w.vals va.val ps } v := fun v hv =>
      ⟨viewOk_pokes va.val v.val ps _ hv.1, hv.2⟩
    have hread : ∀ v, ObjOk w v → Disjoint va.val v.val →
        readView (pokes w.vals va.val ps) v.val = readView w.vals v.val := fun v _ hd => read_pokes_other _ _ hd _ _
    cases ms with
    | none =>
      simp only [step, h, doAssign]
      exact ⟨va, ⟨(set_self h).symm, rfl, hok2 va hok, hok2, rfl, rfl, rfl, .inl rfl, fun _ e => .inl e, hread, fun _ _ _ _ _ => rfl⟩,
        by simp [OwnOk, Op.onAlone, read_pokes va.val ps _ hok.1]⟩
    | some ms =>
      simp only [step, h, doAssign]
      obtain ⟨va', s, hv, ha, hb, hm, hvals⟩ := pokeMask_ok (a := a) (w := { w with vals := pokes w.vals va.val ps }) ms (hok2 va hok)
      refine ⟨va', ⟨s.obj, s.name, s.ok, fun v hv => s.others v (hok2 v hv), s.colls, s.dicts, s.parent, .inl hv,
        fun m e => (s.maskCell m e).imp id fun f v mv hv => f v mv (hok2 v hv), ?_, ?_⟩, ?_⟩
      · intro v hv hd
        rw [hvals]; exact hread v hv hd
      · intro v mv hv e hd
        exact s.readMask v mv (hok2 v hv) e hd
      · simp only [OwnOk, Op.onAlone]
        rw [hm, hvals, hv, ha, hb, s.name, read_pokes va.val ps _ hok.1]
        simp
  | cascade ps =>
    simp only [step, h]
    obtain ⟨va', s, hv, ha, hb, hm, hvals⟩ := pokeMask_ok (a := a) (w := w) (ps.map (·, true)) hok
    refine ⟨va', s, ?_⟩
    simp only [OwnOk, Op.onAlone]
    rw [hm, hvals, hv, ha, hb, s.name]
    simp
  | setAttr k x =>
    simp only [step, h]
    exact ⟨{ va with attrs := setKey va.attrs k x }, ⟨rfl, rfl, hok, fun _ hv => hv, rfl, rfl, rfl, .inl rfl, fun _ e => .inl e,
      fun _ _ _ => rfl, fun _ _ _ _ _ => rfl⟩, by simp [OwnOk, Op.onAlone]⟩

/-- An operation that replaces arrays changes nothing in those that exist. -/
theorem step_replaces {w : World} {a : Nat} {va : VarObj} (op : Op) (h : w.objs[a]? = some va) (hr : op.replaces = true) :
    (∃ x, (step w a op).vals = w.vals ++ x) ∧ ∃ x, (step w a op).masks = w.masks ++ x := by
  cases op with
  | setValue xs =>
    simp only [step, h, doSetValue]
    split
    · exact ⟨⟨_, rfl⟩, [], by simp⟩
    · exact ⟨⟨[], by simp⟩, [], by simp⟩
  | setMask m =>
    cases m with
    | none => simp only [step, h, doSetMask]; exact ⟨⟨[], by simp⟩, [], by simp⟩
    | some m =>
      simp only [step, h, doSetMask]
      split
      · exact ⟨⟨[], by simp [storeMask]⟩, _, rfl⟩
      · exact ⟨⟨[], by simp⟩, [], by simp⟩
  | updateMask m =>
    simp only [step, h, doUpdateMask]
    split
    · split
      · exact ⟨⟨[], by simp [storeMask]⟩, _, rfl⟩
      · exact ⟨⟨[], by simp [storeMask]⟩, _, rfl⟩
    · exact ⟨⟨[], by simp⟩, [], by simp⟩
  | assign ps ms => cases hr
  | cascade ps => cases hr
  | setAttr k x => simp only [step, h]; exact ⟨⟨[], by simp⟩, [], by simp⟩

theorem step_missing {w : World} {a : Nat} (op : Op) (h : w.objs[a]? = none) : step w a op = w := by simp [step, h]

/-- Soundness of the variables is kept. -/
theorem step_objsOk {w : World} (hw : ∀ v, v ∈ w.objs → ObjOk w v) (a : Nat) (op : Op) :
    ∀ v, v ∈ (step w a op).objs → ObjOk (step w a op) v := by
  cases h : w.objs[a]? with
  | none => rw [step_missing op h]; exact hw
  | some va =>
    obtain ⟨va', s, _⟩ := step_ok op h (hw va (List.mem_of_getElem? h))
    intro v hv
    rw [s.obj] at hv
    rcases List.mem_or_eq_of_mem_set hv with hv | rfl
    · exact s.others v (hw v hv)
    · exact s.ok

theorem contents_eq {w : World} {o : Nat} {v : VarObj} (h : w.objs[o]? = some v) : contents w o =
    some ⟨v.name, readView w.vals v.val, v.mask.map (readView w.masks), v.attrs, v.bounds⟩ := by simp [contents, h]

/-- The effect of an operation on the variable itself. -/
theorem step_own {w : World} (hw : ∀ v, v ∈ w.objs → ObjOk w v) (a : Nat) (op : Op) :
    contents (step w a op) a = (contents w a).map op.onAlone := by
  cases h : w.objs[a]? with
  | none => rw [step_missing op h]; simp [contents, h]
  | some va =>
    obtain ⟨va', s, o⟩ := step_ok op h (hw va (List.mem_of_getElem? h))
    have h' : (step w a op).objs[a]? = some va' := by rw [s.obj]; simp [(List.getElem?_eq_some_iff.1 h).1]
    rw [contents_eq h', contents_eq h]
    simp only [Option.map_some, Option.some.injEq]
    exact o

/-- The effect on a variable that shares nothing with it. -/
theorem step_other {w : World} (hw : ∀ v, v ∈ w.objs → ObjOk w v) {a b : Nat} (hab : a ≠ b) (op : Op)
    (hs : op.replaces = true ∨ Separate w a b) : contents (step w a op) b = contents w b := by
  cases h : w.objs[a]? with
  | none => rw [step_missing op h]
  | some va =>
    obtain ⟨va', s, _⟩ := step_ok op h (hw va (List.mem_of_getElem? h))
    cases hb : w.objs[b]? with
    | none => simp [contents, s.obj, List.getElem?_set, hab, hb]
    | some vb =>
      have hb' : (step w a op).objs[b]? = some vb := by rw [s.obj]; simp [List.getElem?_set, hab, hb]
      have hvb := hw vb (List.mem_of_getElem? hb)
      rw [contents_eq hb', contents_eq hb]
      have e1 : readView (step w a op).vals vb.val = readView w.vals vb.val := by
        rcases hs with hs | hs
        · obtain ⟨⟨x, hx⟩, _⟩ := step_replaces op h hs
          rw [hx]; exact read_append x hvb.1
        · exact s.readVal vb hvb (hs va vb h hb).1
      have e2 : vb.mask.map (readView (step w a op).masks) = vb.mask.map (readView w.masks) := by
        cases hm : vb.mask with
        | none => rfl
        | some mv =>
          simp only [Option.map_some, Option.some.injEq]
          rcases hs with hs | hs
          · obtain ⟨_, x, hx⟩ := step_replaces op h hs
            rw [hx]; exact read_append x (hvb.2 mv hm).1
          · exact s.readMask vb mv hvb hm fun m e => (hs va vb h hb).2 m mv e hm
      rw [e1, e2]

theorem Separate.symm {w : World} {a b : Nat} (h : Separate w a b) : Separate w b a := fun va vb ha hb =>
  ⟨(h vb va hb ha).1.symm, fun ma mb e e' => ((h vb va hb ha).2 mb ma e' e).symm⟩

/-- Variables that share nothing never come to share something. -/
theorem step_separate {w : World} (hw : ∀ v, v ∈ w.objs → ObjOk w v) {a b c : Nat} (hbc : b ≠ c) (op : Op)
    (hs : Separate w b c) : Separate (step w a op) b c := by
  cases h : w.objs[a]? with
  | none => rw [step_missing op h]; exact hs
  | some va =>
    obtain ⟨va', s, _⟩ := step_ok op h (hw va (List.mem_of_getElem? h))
    have hlt := (List.getElem?_eq_some_iff.1 h).1
    have key : ∀ b c, b ≠ c → Separate w b c → a = b → Separate (step w a op) b c := by
      rintro b c hbc hs rfl vb vc hb hc
      rw [s.obj] at hb hc
      simp only [List.getElem?_set, if_true, hlt, Option.some.injEq] at hb
      subst hb
      simp only [List.getElem?_set, hbc, if_false] at hc
      have hvc := hw vc (List.mem_of_getElem? hc)
      refine ⟨?_, ?_⟩
      · rcases s.valCell with e | e
        · rw [e]; exact (hs va vc h hc).1
        · exact e vc hvc
      · intro ma mb e e'
        rcases s.maskCell ma e with e2 | e2
        · exact (hs va vc h hc).2 ma mb e2 e'
        · exact e2 vc mb hvc e'
    by_cases hab : a = b
    · exact key b c hbc hs hab
    · by_cases hac : a = c
      · exact (key c b (Ne.symm hbc) hs.symm hac).symm
      · intro vb vc hb hc
        rw [s.obj] at hb hc
        simp only [List.getElem?_set, hab, hac, if_false] at hb hc
        exact hs vb vc hb hc

theorem alone_cons_self (o : Nat) (c : Contents) (op : Op) (ops : List (Nat × Op)) : alone o c ((o, op) :: ops) = alone o (op.onAlone c) ops := by
  simp [alone]

theorem alone_cons_other {o a : Nat} (h : a ≠ o) (c : Contents) (op : Op) (ops : List (Nat × Op)) :
    alone o c ((a, op) :: ops) = alone o c ops := by
  simp [alone, h]

/-- A variable that shares nothing with the ones written to. -/
theorem run_independent (b : Nat) : ∀ (ops : List (Nat × Op)) (w : World), (∀ v, v ∈ w.objs → ObjOk w v) →
    (∀ q, q ∈ ops → q.1 ≠ b → Separate w q.1 b ∨ q.2.replaces = true) →
    contents (run w ops) b = (contents w b).map fun c => alone b c ops
  | [], w, _, _ => by cases h : contents w b <;> simp [run, alone, h]
  | (a, op) :: ops, w, hw, hq => by
    have ih := run_independent b ops (step w a op) (step_objsOk hw a op) fun q h hne =>
      (hq q (List.mem_cons_of_mem _ h) hne).imp (step_separate hw hne op) id
    have hr : run w ((a, op) :: ops) = run (step w a op) ops := rfl
    rw [hr, ih]
    by_cases hab : a = b
    · subst hab
      rw [step_own hw]
      simp only [Option.map_map]
      congr 1
      funext c
      exact (alone_cons_self a c op ops).symm
    · rw [step_other hw hab op (hq (a, op) (List.mem_cons_self ..) hab).symm]
      congr 1
      funext c
      exact (alone_cons_other hab c op ops).symm

/-- What was there is there still. -/
def Keeps {α : Type} (l l' : List α) : Prop := ∀ (i : Nat) (x : α), l[i]? = some x → l'[i]? = some x

theorem Keeps.refl {α : Type} (l : List α) : Keeps l l := fun _ _ h => h

theorem Keeps.trans {α : Type} {a b c : List α} (h : Keeps a b) (h' : Keeps b c) : Keeps a c := fun i x e => h' i x (h i x e)

theorem Keeps.append {α : Type} (l x : List α) : Keeps l (l ++ x) := fun i y e => by
  rw [List.getElem?_append_left (List.getElem?_eq_some_iff.1 e).1]; exact e

theorem Keeps.le {α : Type} {a b : List α} (h : Keeps a b) : a.length ≤ b.length := by
  by_cases h0 : a.length = 0
  · omega
  · have hlt : a.length - 1 < a.length := by omega
    have := h _ _ (List.getElem?_eq_getElem hlt)
    have := (List.getElem?_eq_some_iff.1 this).1
    omega

theorem Keeps.set {α : Type} {a b : List α} (h : Keeps a b) {i : Nat} (hi : a.length ≤ i) (x : α) : Keeps a (b.set i x) := fun j y e => by
  have := (List.getElem?_eq_some_iff.1 e).1
  rw [List.getElem?_set_ne (by omega)]
  exact h j y e

theorem Keeps.modify {α : Type} {a b : List α} (h : Keeps a b) {i : Nat} (hi : a.length ≤ i) (f : α → α) : Keeps a (b.modify i f) := fun j y e => by
  have := (List.getElem?_eq_some_iff.1 e).1
  have hij : i ≠ j := by omega
  simp [hij, h j y e]

/-- Everything that was there is there still. -/
structure Frame (w w' : World) : Prop where
  vals : Keeps w.vals w'.vals
  masks : Keeps w.masks w'.masks
  dicts : Keeps w.dicts w'.dicts
  objs : Keeps w.objs w'.objs
  colls : Keeps w.colls w'.colls

theorem Frame.refl (w : World) : Frame w w := ⟨.refl _, .refl _, .refl _, .refl _, .refl _⟩

theorem Frame.trans {a b c : World} (h : Frame a b) (h' : Frame b c) : Frame a c :=
  ⟨h.vals.trans h'.vals, h.masks.trans h'.masks, h.dicts.trans h'.dicts, h.objs.trans h'.objs, h.colls.trans h'.colls⟩

theorem Keeps.viewOk {α : Type} {a b : List (List α)} (h : Keeps a b) {v : View} (hv : ViewOk a v) : ViewOk b v := by
  obtain ⟨x, hx, r⟩ := hv
  exact ⟨x, h _ _ hx, r⟩

theorem Keeps.read {α : Type} [Inhabited α] {a b : List (List α)} (h : Keeps a b) {v : View} (hv : ViewOk a v) : readView b v = readView a v := by
  obtain ⟨x, hx, _⟩ := hv
  simp [readView, hx, h _ _ hx]

theorem Frame.objOk {w w' : World} (h : Frame w w') {v : VarObj} (hv : ObjOk w v) : ObjOk w' v :=
  ⟨h.vals.viewOk hv.1, fun mv e => ⟨h.masks.viewOk (hv.2 mv e).1, (hv.2 mv e).2⟩⟩

/-- The contents of a variable object with these attributes in this memory. -/
def look (w : World) (v : VarObj) : Contents :=
  ⟨v.name, readView w.vals v.val, v.mask.map (readView w.masks), v.attrs, v.bounds⟩

theorem Frame.look {w w' : World} (h : Frame w w') {v : VarObj} (hv : ObjOk w v) : look w' v = look w v := by
  simp only [Alias.look, h.vals.read hv.1, Contents.mk.injEq, and_true, true_and]
  cases hm : v.mask with
  | none => rfl
  | some mv => simp [h.masks.read (hv.2 mv hm).1]

theorem contents_look (w : World) (o : Nat) : contents w o = (w.objs[o]?).map (look w) := rfl

theorem Frame.contents {w w' : World} (h : Frame w w') {o : Nat} {v : VarObj} (ho : w.objs[o]? = some v) (hv : ObjOk w v) :
    contents w' o = contents w o := by
  rw [contents_look, contents_look, h.objs _ _ ho, ho]
  simp [h.look hv]

/-- What makes a member of a copied collection. -/
structure CloneOk (f : World → VarObj → World × VarObj) : Prop where
  frame : ∀ w v, Frame w (f w v).1
  objs : ∀ w v, (f w v).1.objs = w.objs
  colls : ∀ w v, (f w v).1.colls = w.colls
  dicts : ∀ w v, (f w v).1.dicts = w.dicts
  ok : ∀ w v, ObjOk w v → ObjOk (f w v).1 (f w v).2
  name : ∀ w v, (f w v).2.name = v.name

theorem cloneMembers_ok {f : World → VarObj → World × VarObj} (hf : CloneOk f) (newc : Nat) :
    ∀ (ms : List (String × Nat)) (w : World), (∀ v, v ∈ w.objs → ObjOk w v) → (∀ e, e ∈ ms → ∃ v, w.objs[e.2]? = some v) →
      let r := cloneMembers f newc w ms
      Frame w r.1 ∧ r.1.colls = w.colls ∧ r.1.dicts = w.dicts ∧ (∀ v, v ∈ r.1.objs → ObjOk r.1 v) ∧
      (∀ v, v ∈ r.1.objs → v ∈ w.objs ∨ v.parent = some newc) ∧ r.2.map (·.1) = ms.map (·.1) ∧
      ∀ (i : Nat) (e : String × Nat) (v : VarObj), ms[i]? = some e → w.objs[e.2]? = some v →
        ∃ o' w0, r.2[i]? = some (e.1, o') ∧ w.objs.length ≤ o' ∧ Frame w w0 ∧
          r.1.objs[o']? = some { (f w0 v).2 with parent := some newc } ∧ Frame (f w0 v).1 r.1
  | [], w, hw, _ => ⟨.refl _, rfl, rfl, hw, fun _ h => .inl h, rfl, fun i e v h => by simp at h⟩
  | (k, o) :: rest, w, hw, he => by
    obtain ⟨v, hv⟩ := he (k, o) (List.mem_cons_self ..)
    have hvok := hw v (List.mem_of_getElem? hv)
    have e : cloneMembers f newc w ((k, o) :: rest) =
        (let s := cloneMembers f newc { (f w v).1 with objs := (f w v).1.objs ++ [{ (f w v).2 with parent := some newc }] } rest
        (s.1, (k, (f w v).1.objs.length) :: s.2)) := by
      simp only [cloneMembers, hv]
    have hfr1 : Frame (f w v).1 { (f w v).1 with objs := (f w v).1.objs ++ [{ (f w v).2 with parent := some newc }] } :=
      ⟨.refl _, .refl _, .refl _, .append _ _, .refl _⟩
    have hfr : Frame w { (f w v).1 with objs := (f w v).1.objs ++ [{ (f w v).2 with parent := some newc }] } :=
      (hf.frame w v).trans hfr1
    have hok1 : ObjOk { (f w v).1 with objs := (f w v).1.objs ++ [{ (f w v).2 with parent := some newc }] }
        { (f w v).2 with parent := some newc } := hf.ok w v hvok
    obtain ⟨h1, h2, h2', h3, h4, h5, h6⟩ := cloneMembers_ok hf newc rest
      { (f w v).1 with objs := (f w v).1.objs ++ [{ (f w v).2 with parent := some newc }] }
      (by
        intro u hu
        simp only [List.mem_append, List.mem_singleton, hf.objs] at hu
        rcases hu with hu | rfl
        · exact hfr.objOk (hw u hu)
        · exact hok1)
      (by
        intro q hq
        obtain ⟨u, hu⟩ := he q (List.mem_cons_of_mem _ hq)
        exact ⟨u, hfr.objs _ _ hu⟩)
    rw [e]
    refine ⟨hfr.trans h1, by rw [h2]; exact hf.colls w v, by rw [h2']; exact hf.dicts w v, h3, ?_, by simp [h5], ?_⟩
    · intro u hu
      rcases h4 u hu with h | h
      · simp only [List.mem_append, List.mem_singleton, hf.objs] at h
        rcases h with h | rfl
        · exact .inl h
        · exact .inr rfl
      · exact .inr h
    · intro i q u hi hq
      cases i with
      | zero =>
        simp only [List.getElem?_cons_zero, Option.some.injEq] at hi
        subst hi
        have : u = v := by
          have := hv.symm.trans hq
          simpa using this.symm
        subst this
        refine ⟨(f w u).1.objs.length, w, rfl, by rw [hf.objs]; exact Nat.le_refl _, .refl _, ?_, hfr1.trans h1⟩
        exact h1.objs _ _ (by simp)
      | succ i =>
        simp only [List.getElem?_cons_succ] at hi
        obtain ⟨o', w0, a, b, c, d, g⟩ := h6 i q u hi (hfr.objs _ _ hq)
        refine ⟨o', w0, by simpa using a, ?_, hfr.trans c, d, g⟩
        refine Nat.le_trans ?_ b
        simp [hf.objs]

theorem WorldOk.mem {w : World} (hw : WorldOk w) {c : Nat} {cl : Coll} (hc : w.colls[c]? = some cl) {e : String × Nat} (he : e ∈ cl.members) :
    ∃ v, w.objs[e.2]? = some v ∧ v.name = e.1 ∧ v.parent = some c := hw.members c cl hc e he

/-- A copied collection. -/
theorem cloneColl_ok {f : World → VarObj → World × VarObj} (hf : CloneOk f) {w : World} (hw : WorldOk w) {c : Nat} {cl : Coll}
    (hc : w.colls[c]? = some cl) :
    (cloneColl f w c).2 = w.colls.length ∧ Frame w (cloneColl f w c).1 ∧ WorldOk (cloneColl f w c).1 ∧
    (cloneColl f w c).1.dicts = w.dicts ∧
    ∃ ms, (cloneColl f w c).1.colls = w.colls ++ [{ members := ms, attrs := cl.attrs }] ∧ ms.map (·.1) = cl.members.map (·.1) ∧
      ∀ (i : Nat) (e : String × Nat) (v : VarObj), cl.members[i]? = some e → w.objs[e.2]? = some v →
        ∃ o' w0, ms[i]? = some (e.1, o') ∧ w.objs.length ≤ o' ∧ Frame w w0 ∧
          (cloneColl f w c).1.objs[o']? = some { (f w0 v).2 with parent := some w.colls.length } ∧
          Frame (f w0 v).1 (cloneColl f w c).1 := by
  have e : cloneColl f w c =
      (let s := cloneMembers f w.colls.length w cl.members
       ({ s.1 with colls := s.1.colls ++ [{ members := s.2, attrs := cl.attrs }] }, w.colls.length)) := by
    simp only [cloneColl, hc]
  obtain ⟨h1, h2, h2', h3, h4, h5, h6⟩ := cloneMembers_ok hf w.colls.length cl.members w hw.objs
    (fun q hq => (hw.mem hc hq).imp fun _ h => h.1)
  rw [e]
  generalize cloneMembers f w.colls.length w cl.members = s at *
  have hfr1 : Frame w s.1 := h1
  have hlast : ∀ (w0 : World), Frame w0 s.1 →
      Frame w0 { s.1 with colls := w.colls ++ [{ members := s.2, attrs := cl.attrs }] } := fun w0 h =>
    ⟨h.vals, h.masks, h.dicts, h.objs, (h2 ▸ h.colls).trans (.append _ _)⟩
  have h6' := h6
  simp only [h2]
  have hnew : ∀ q, q ∈ s.2 → ∃ v, s.1.objs[q.2]? = some v ∧ v.name = q.1 ∧ v.parent = some w.colls.length := by
    intro q hq
    obtain ⟨i, hi⟩ := List.getElem?_of_mem hq
    have hlen : s.2.length = cl.members.length := by simpa using congrArg List.length h5
    have hlt : i < cl.members.length := by have := (List.getElem?_eq_some_iff.1 hi).1; omega
    have hei := List.getElem?_eq_getElem hlt
    obtain ⟨v, hv, hn, _⟩ := hw.mem hc (List.getElem_mem hlt)
    obtain ⟨o', w0, a, _, _, d, _⟩ := h6' i _ v hei hv
    rw [hi] at a
    simp only [Option.some.injEq] at a
    subst a
    exact ⟨_, d, by simpa [hf.name] using hn, rfl⟩
  refine ⟨trivial, hlast w hfr1, ⟨h3, ?_, ?_, ?_⟩, h2', s.2, rfl, h5, ?_⟩
  · intro v hv d hd
    simp only [List.length_append, List.length_singleton]
    rcases h4 v hv with h | h
    · have := hw.parents v h d hd
      omega
    · rw [h] at hd
      simp only [Option.some.injEq] at hd
      omega
  · intro d cl' hd q hq
    rw [List.getElem?_append] at hd
    split at hd
    · obtain ⟨v, hv, r⟩ := hw.mem hd hq
      exact ⟨v, hfr1.objs _ _ hv, r⟩
    · have hd0 : d - w.colls.length = 0 := by
        by_cases h0 : d - w.colls.length = 0
        · exact h0
        · rw [List.getElem?_eq_none (by simp; omega)] at hd; cases hd
      rw [hd0] at hd
      simp only [List.getElem?_cons_zero, Option.some.injEq] at hd
      subst hd
      have : d = w.colls.length := by omega
      subst this
      exact hnew q hq
  · intro cl' hcl'
    simp only [List.mem_append, List.mem_singleton] at hcl'
    rcases hcl' with h | rfl
    · exact hw.keys cl' h
    · rw [h5]; exact hw.keys cl (List.mem_of_getElem? hc)
  · intro i q v hi hv
    obtain ⟨o', w0, a, b, cc, d, g⟩ := h6' i q v hi hv
    exact ⟨o', w0, a, b, cc, d, hlast _ g⟩

theorem shared_ok : CloneOk shared := ⟨fun w _ => .refl w, fun _ _ => rfl, fun _ _ => rfl, fun _ _ => rfl, fun _ _ h => h, fun _ _ => rfl⟩

theorem pick_length {α β : Type} {l : List α} {m : List β} (h : l.length = m.length) : ∀ ps : List Nat, (pick ps l).length = (pick ps m).length
  | [] => rfl
  | p :: ps => by
    have ih := pick_length h ps
    simp only [pick, List.filterMap_cons] at ih ⊢
    by_cases hp : p < l.length
    · have hp' : p < m.length := h ▸ hp
      simp [hp, hp', ih]
    · have hp' : ¬ p < m.length := h ▸ hp
      simp [hp, hp', ih]

theorem pick_map {α β : Type} (f : α → β) (l : List α) : ∀ ps : List Nat, (pick ps l).map f = pick ps (l.map f)
  | [] => rfl
  | p :: ps => by
    have ih := pick_map f l ps
    simp only [pick, List.filterMap_cons, List.getElem?_map] at ih ⊢
    cases l[p]? <;> simp [ih]

theorem pick_mem {α : Type} {l : List α} {ps : List Nat} {x : α} (h : x ∈ pick ps l) : x ∈ l := by
  simp only [pick, List.mem_filterMap] at h
  obtain ⟨p, _, hp⟩ := h
  exact List.mem_of_getElem? hp

theorem pick_nodup {α : Type} {l : List α} (hl : l.Nodup) : ∀ {ps : List Nat}, ps.Nodup → (pick ps l).Nodup
  | [], _ => List.nodup_nil
  | p :: ps, h => by
    obtain ⟨hp, hps⟩ := List.nodup_cons.1 h
    have ih := pick_nodup hl hps
    simp only [pick, List.filterMap_cons] at ih ⊢
    cases hx : l[p]? with
    | none => simpa [hx] using ih
    | some x =>
      simp only [hx]
      refine List.nodup_cons.2 ⟨?_, ih⟩
      intro hm
      simp only [List.mem_filterMap] at hm
      obtain ⟨q, hq, hqx⟩ := hm
      obtain ⟨h1, e1⟩ := List.getElem?_eq_some_iff.1 hx
      obtain ⟨h2, e2⟩ := List.getElem?_eq_some_iff.1 hqx
      have hne : p ≠ q := fun e => hp (e ▸ hq)
      rcases Nat.lt_or_gt_of_ne hne with hl' | hl'
      · exact List.pairwise_iff_getElem.1 hl p q h1 h2 hl' (e1.trans e2.symm)
      · exact List.pairwise_iff_getElem.1 hl q p h2 h1 hl' (e2.trans e1.symm)

theorem sliceView_ok {α : Type} [Inhabited α] {bufs : List (List α)} {v : View} {s : Sel} (hs : s.Ok) (hv : ViewOk bufs v) :
    ViewOk (sliceView bufs v s).1 (sliceView bufs v s).2 ∧
    readView (sliceView bufs v s).1 (sliceView bufs v s).2 = pick s.ps (readView bufs v) ∧
    (sliceView bufs v s).2.idx.length = (pick s.ps v.idx).length := by
  have e : readView bufs { v with idx := s.ps.filterMap (v.idx[·]?) } = pick s.ps (readView bufs v) := by
    simp only [readView]
    exact pick_map _ _ _
  simp only [sliceView]
  split
  · refine ⟨viewOk_fresh _ _, by rw [read_fresh, e], ?_⟩
    simp [fresh, readView, pick]
  · rename_i hf
    obtain ⟨b, hb, hn, hi⟩ := hv
    exact ⟨⟨b, hb, pick_nodup hn (hs (by simpa using hf)), fun i h => hi i (pick_mem h)⟩, e, rfl⟩

theorem sliceView_keeps {α : Type} [Inhabited α] (bufs : List (List α)) (v : View) (s : Sel) : Keeps bufs (sliceView bufs v s).1 := by
  simp only [sliceView]
  split
  · exact .append _ _
  · exact .refl _

theorem sliceObj_look {w : World} {v : VarObj} {s : Sel} (hs : s.Ok) (hv : ObjOk w v) :
    look (sliceObj s w v).1 (sliceObj s w v).2 = (look w v).pick s.ps := by
  have h1 := (sliceView_ok hs hv.1).2.1
  simp only [sliceObj]
  split
  · rename_i hm
    simp [look, Contents.pick, h1, hm]
  · rename_i mv hm
    have h2 := (sliceView_ok hs (hv.2 mv hm).1).2.1
    simp [look, Contents.pick, h1, h2, hm]

theorem sliceObj_objOk {w : World} {v : VarObj} {s : Sel} (hs : s.Ok) (hv : ObjOk w v) : ObjOk (sliceObj s w v).1 (sliceObj s w v).2 := by
  have h1 := sliceView_ok hs hv.1
  simp only [sliceObj]
  split
  · rename_i hm
    exact ⟨h1.1, fun mv e => by simp [hm] at e⟩
  · rename_i mv hm
    have h2 := sliceView_ok hs (hv.2 mv hm).1
    refine ⟨h1.1, ?_⟩
    rintro u ⟨rfl⟩
    refine ⟨h2.1, ?_⟩
    show (sliceView w.masks mv s).2.idx.length = (sliceView w.vals v.val s).2.idx.length
    rw [h1.2.2, h2.2.2]
    exact pick_length (hv.2 mv hm).2 _

/-- How `sliceColl` makes a member. -/
def sliceFn (sel : String → Option Sel) (w : World) (v : VarObj) : World × VarObj :=
  match sel v.name with | none => shared w v | some s => sliceObj s w v

theorem sliceFn_ok {sel : String → Option Sel} (h : SelsOk sel) : CloneOk (sliceFn sel) := by
  have key : ∀ w v, Frame w (sliceFn sel w v).1 ∧ (sliceFn sel w v).1.objs = w.objs ∧ (sliceFn sel w v).1.colls = w.colls ∧
      (sliceFn sel w v).1.dicts = w.dicts ∧ (sliceFn sel w v).2.name = v.name := by
    intro w v
    simp only [sliceFn]
    split
    · exact ⟨.refl _, rfl, rfl, rfl, rfl⟩
    · simp only [sliceObj]
      split
      · exact ⟨⟨sliceView_keeps _ _ _, .refl _, .refl _, .refl _, .refl _⟩, rfl, rfl, rfl, rfl⟩
      · exact ⟨⟨sliceView_keeps _ _ _, sliceView_keeps _ _ _, .refl _, .refl _, .refl _⟩, rfl, rfl, rfl, rfl⟩
  refine ⟨fun w v => (key w v).1, fun w v => (key w v).2.1, fun w v => (key w v).2.2.1, fun w v => (key w v).2.2.2.1, ?_,
    fun w v => (key w v).2.2.2.2⟩
  intro w v hv
  simp only [sliceFn]
  split
  · exact hv
  · rename_i s hs
    exact sliceObj_objOk (h _ _ hs) hv

theorem find_key {ms : List (String × Nat)} (hn : (ms.map (·.1)).Nodup) {k : String} {o : Nat} (h : (k, o) ∈ ms) :
    ms.find? (·.1 = k) = some (k, o) := by
  induction ms with
  | nil => cases h
  | cons e rest ih =>
    obtain ⟨h1, h2⟩ := List.nodup_cons.1 hn
    rcases List.mem_cons.1 h with rfl | h
    · simp
    · have : e.1 ≠ k := fun he => h1 (List.mem_map.2 ⟨_, h, he.symm⟩)
      simp [this, ih h2 h]

theorem member_iff {w : World} (hw : WorldOk w) {c : Nat} {cl : Coll} (hc : w.colls[c]? = some cl) {k : String} {o : Nat} :
    member w c k = some o ↔ (k, o) ∈ cl.members := by
  simp only [member, hc, Option.bind_some]
  constructor
  · intro h
    cases hf : cl.members.find? (·.1 = k) with
    | none => simp [hf] at h
    | some e =>
      simp only [hf, Option.map_some, Option.some.injEq] at h
      have h1 := List.mem_of_find?_eq_some hf
      have h2 : e.1 = k := by simpa using List.find?_some hf
      subst h; subst h2
      exact h1
  · intro h
    rw [find_key (hw.keys cl (List.mem_of_getElem? hc)) h]
    rfl

/-- The variable of a name in a copied collection. -/
theorem cloneColl_member {f : World → VarObj → World × VarObj} (hf : CloneOk f) {w : World} (hw : WorldOk w) {c : Nat} {k : String} {o : Nat}
    {v : VarObj} (hm : member w c k = some o) (hv : w.objs[o]? = some v) :
    ∃ o' w0, member (cloneColl f w c).1 (cloneColl f w c).2 k = some o' ∧ w.objs.length ≤ o' ∧ Frame w w0 ∧
      (cloneColl f w c).1.objs[o']? = some { (f w0 v).2 with parent := some w.colls.length } ∧ Frame (f w0 v).1 (cloneColl f w c).1 := by
  cases hc : w.colls[c]? with
  | none => simp [member, hc] at hm
  | some cl =>
    obtain ⟨h1, h2, h3, _, ms, h4, h5, h6⟩ := cloneColl_ok hf hw hc
    obtain ⟨i, hi⟩ := List.getElem?_of_mem ((member_iff hw hc).1 hm)
    obtain ⟨o', w0, a, b, cc, d, g⟩ := h6 i (k, o) v hi hv
    refine ⟨o', w0, ?_, b, cc, d, g⟩
    rw [h1]
    exact (member_iff h3 (by rw [h4]; simp; rfl)).2 (List.mem_of_getElem? a)

theorem cloneColl_none {f : World → VarObj → World × VarObj} {w : World} {c : Nat} (h : w.colls[c]? = none) : cloneColl f w c = (w, c) := by
  simp [cloneColl, h]

theorem look_parent (w : World) (v : VarObj) (p : Option Nat) : look w { v with parent := p } = look w v := rfl

/-- What `copyVar` gives for a variable that its parent has under its name. -/
theorem copyVar_ok {w : World} (hw : WorldOk w) {o : Nat} {v : VarObj} {c : Nat} (hv : w.objs[o]? = some v) (hp : v.parent = some c)
    (hm : member w c v.name = some o) :
    ∃ w' o', copyVar w o = some (w', o') ∧ Frame w w' ∧ WorldOk w' ∧ w.objs.length ≤ o' ∧
      w'.objs[o']? = some { v with parent := some w.colls.length } ∧ member w' w.colls.length v.name = some o' ∧
      w'.colls.length = w.colls.length + 1 ∧ (w' , w.colls.length) = copyColl w c := by
  have hc := hw.parents v (List.mem_of_getElem? hv) c hp
  obtain ⟨h1, h2, h3, _, ms, h4, h5, h6⟩ := cloneColl_ok shared_ok hw (List.getElem?_eq_getElem hc)
  obtain ⟨o', w0, a, b, cc, d, g⟩ := cloneColl_member shared_ok hw hm hv
  refine ⟨(copyColl w c).1, o', ?_, h2, h3, b, d, ?_, ?_, ?_⟩
  · simp only [copyVar, hv, hp, copyColl, a, Option.map_some]
  · rw [h1] at a; exact a
  · show (cloneColl shared w c).1.colls.length = _
    rw [h4]; simp
  · show _ = cloneColl shared w c
    exact Prod.ext rfl h1.symm

/-- `own` gives a variable arrays of its own. -/
theorem own_ok {w : World} (hw : WorldOk w) {o : Nat} {v : VarObj} (hv : w.objs[o]? = some v) :
    ∃ v', (own w o).objs = w.objs.set o v' ∧ v'.name = v.name ∧ v'.parent = v.parent ∧ v'.bounds = v.bounds ∧ w.vals.length ≤ v'.val.buf ∧
      (∀ mv, v'.mask = some mv → w.masks.length ≤ mv.buf) ∧ Keeps w.vals (own w o).vals ∧ Keeps w.masks (own w o).masks ∧
      (own w o).colls = w.colls ∧ (own w o).dicts = w.dicts ∧ ObjOk (own w o) v' ∧ look (own w o) v' = look w v := by
  have hok := hw.objs v (List.mem_of_getElem? hv)
  cases hm : v.mask with
  | none =>
    simp only [own, hv, hm]
    refine ⟨{ v with val := fresh w.vals (readView w.vals v.val) }, by simp [hm], rfl, rfl, rfl, Nat.le_refl _, fun mv e => by (simp [hm] at e), .append _ _, .refl _,
      trivial, trivial, ⟨viewOk_fresh _ _, fun mv e => by (simp [hm] at e)⟩, ?_⟩
    simp [look, read_fresh, hm]
  | some mv =>
    simp only [own, hv, hm]
    refine ⟨{ v with val := fresh w.vals (readView w.vals v.val), mask := some (fresh w.masks (readView w.masks mv)) }, rfl, rfl, rfl, rfl,
      Nat.le_refl _, ?_, .append _ _, .append _ _, trivial, trivial, ⟨viewOk_fresh _ _, ?_⟩, ?_⟩
    · rintro u ⟨rfl⟩; exact Nat.le_refl _
    · rintro u ⟨rfl⟩
      exact ⟨viewOk_fresh _ _, by simp [fresh, (hok.2 mv hm).2]⟩
    · simp [look, read_fresh, hm]

/-- What `deepcopyPlain` gives for a variable that its parent has under its name. -/
structure PlainOk (w : World) (c : Nat) (v : VarObj) (w' : World) (o' : Nat) : Prop where
  frame : Frame w w'
  ok : WorldOk w'
  new : w.objs.length ≤ o'
  obj : ∃ v', w'.objs[o']? = some v' ∧ v'.name = v.name ∧ v'.parent = some w.colls.length ∧ v'.bounds = v.bounds ∧
    look w' v' = look w v ∧ w.vals.length ≤ v'.val.buf ∧ ∀ mv, v'.mask = some mv → w.masks.length ≤ mv.buf
  member : Alias.member w' w.colls.length v.name = some o'
  colls : w'.colls.length = w.colls.length + 1
  news : ∀ cl, w'.colls[w.colls.length]? = some cl → ∀ e, e ∈ cl.members → w.objs.length ≤ e.2
  others : ∀ k a va, Alias.member w c k = some a → w.objs[a]? = some va → k ≠ v.name →
    ∃ a', Alias.member w' w.colls.length k = some a' ∧ w.objs.length ≤ a' ∧ w'.objs[a']? = some { va with parent := some w.colls.length }

theorem deepcopyPlain_ok {w : World} (hw : WorldOk w) {o : Nat} {v : VarObj} {c : Nat} (hv : w.objs[o]? = some v) (hp : v.parent = some c)
    (hm : member w c v.name = some o) : ∃ w' o', deepcopyPlain w o = some (w', o') ∧ PlainOk w c v w' o' := by
  obtain ⟨w1, o', h1, h2, h3, h4, h5, h6, h7, h8⟩ := copyVar_ok hw hv hp hm
  obtain ⟨v', g1, g2, g3, g4, g5, g6, g7, g8, g9, g10, g11, g12⟩ := own_ok h3 h5
  have hlt : o' < w1.objs.length := (List.getElem?_eq_some_iff.1 h5).1
  have hobj : (own w1 o').objs[o']? = some v' := by rw [g1]; simp [hlt]
  have hwp : withParent (own w1 o') o' = own w1 o' := by
    simp only [withParent, hobj, g3]
  have hother : ∀ a va, a ≠ o' → w1.objs[a]? = some va → (own w1 o').objs[a]? = some va := by
    intro a va ha e
    rw [g1, List.getElem?_set_ne (Ne.symm ha)]; exact e
  have hmem : ∀ c k, member (own w1 o') c k = member w1 c k := fun c k => by simp only [member, g9]
  have hok : ∀ u, ObjOk w1 u → ObjOk (own w1 o') u := fun u hu =>
    ⟨g7.viewOk hu.1, fun mv e => ⟨g8.viewOk (hu.2 mv e).1, (hu.2 mv e).2⟩⟩
  refine ⟨own w1 o', o', by simp [deepcopyPlain, h1, hwp], ⟨?_, ⟨?_, ?_, ?_, ?_⟩, h4, ?_, ?_, ?_, ?_, ?_⟩⟩
  · exact ⟨h2.vals.trans g7, h2.masks.trans g8, by rw [g10]; exact h2.dicts, by rw [g1]; exact h2.objs.set h4 _, by rw [g9]; exact h2.colls⟩
  · intro u hu
    rw [g1] at hu
    rcases List.mem_or_eq_of_mem_set hu with hu | rfl
    · exact hok u (h3.objs u hu)
    · exact g11
  · intro u hu d hd
    rw [g9]
    rw [g1] at hu
    rcases List.mem_or_eq_of_mem_set hu with hu | rfl
    · exact h3.parents u hu d hd
    · rw [g3] at hd
      exact h3.parents _ (List.mem_of_getElem? h5) d hd
  · intro d cl hd e he
    rw [g9] at hd
    obtain ⟨u, hu, r⟩ := h3.members d cl hd e he
    by_cases heo : e.2 = o'
    · rw [heo] at hu ⊢
      rw [h5] at hu
      simp only [Option.some.injEq] at hu
      subst hu
      exact ⟨v', hobj, g2.trans r.1, g3.trans r.2⟩
    · exact ⟨u, hother _ _ heo hu, r⟩
  · intro cl hcl
    rw [g9] at hcl
    exact h3.keys cl hcl
  · exact ⟨v', hobj, g2, g3, g4, by rw [g12, look_parent]; exact h2.look (hw.objs v (List.mem_of_getElem? hv)),
      Nat.le_trans h2.vals.le g5, fun mv e => Nat.le_trans h2.masks.le (g6 mv e)⟩
  · rw [hmem]; exact h6
  · rw [g9]; exact h7
  · intro cl hcl e he
    rw [g9] at hcl
    obtain ⟨u, hu, hn, hpar⟩ := h3.members _ cl hcl e he
    by_cases hlt' : e.2 < w.objs.length
    · have hold := List.getElem?_eq_getElem hlt'
      have := h2.objs _ _ hold
      rw [hu] at this
      simp only [Option.some.injEq] at this
      subst this
      have := hw.parents _ (List.getElem_mem hlt') _ hpar
      omega
    · omega
  · intro k a va ha hva hk
    obtain ⟨a', w0, p1, p2, p3, p4, p5⟩ := cloneColl_member shared_ok hw ha hva
    have hcc : cloneColl shared w c = (w1, w.colls.length) := h8.symm
    rw [hcc] at p1 p4
    refine ⟨a', by rw [hmem]; exact p1, p2, hother a' _ ?_ p4⟩
    rintro rfl
    rw [h5] at p4
    simp only [Option.some.injEq] at p4
    have e1 : v.name = va.name := by injection p4
    have hc := hw.parents v (List.mem_of_getElem? hv) c hp
    obtain ⟨u, hu, hn, _⟩ := hw.mem (List.getElem?_eq_getElem hc) ((member_iff hw (List.getElem?_eq_getElem hc)).1 ha)
    rw [hva] at hu
    simp only [Option.some.injEq] at hu
    subst hu
    exact hk (hn.symm.trans e1.symm)

/-- Adopting variables changes parents and the members of one collection only. -/
theorem adopt_ok (t : Nat) : ∀ (ms : List (String × Nat)) (w : World),
    (adopt w t ms).vals = w.vals ∧ (adopt w t ms).masks = w.masks ∧ (adopt w t ms).dicts = w.dicts ∧
    (∀ (o : Nat) (v : VarObj), w.objs[o]? = some v → ∃ p, (adopt w t ms).objs[o]? = some { v with parent := p } ∧ (p = v.parent ∨ p = some t)) ∧
    (∀ v', v' ∈ (adopt w t ms).objs → ∃ (v : VarObj) (p : Option Nat), v ∈ w.objs ∧ v' = { v with parent := p }) ∧
    (∀ w0 : World, Keeps w0.objs w.objs → (∀ e, e ∈ ms → w0.objs.length ≤ e.2) → Keeps w0.objs (adopt w t ms).objs) ∧
    (∀ w0 : World, Keeps w0.colls w.colls → w0.colls.length ≤ t → Keeps w0.colls (adopt w t ms).colls)
  | [], w => ⟨rfl, rfl, rfl, fun o v h => ⟨v.parent, h, .inl rfl⟩, fun v' h => ⟨v', v'.parent, h, rfl⟩, fun _ h _ => h, fun _ h _ => h⟩
  | (k, o) :: rest, w => by
    obtain ⟨h1, h2, h3, h4, h5, h6, h7⟩ := adopt_ok t rest
      (adoptOne w t k o)
    have e : adopt w t ((k, o) :: rest) = adopt (adoptOne w t k o) t rest := rfl
    rw [e]
    refine ⟨h1, h2, h3, ?_, ?_, ?_, ?_⟩
    · intro a v hv
      by_cases ha : o = a
      · subst ha
        obtain ⟨p, hp, hq⟩ := h4 o { v with parent := some t } (by simp [adoptOne, hv])
        exact ⟨p, hp, .inr (hq.elim id id)⟩
      · exact h4 a v (by simp [adoptOne, ha, hv])
    · intro v' hv'
      obtain ⟨u, p, hu, rfl⟩ := h5 v' hv'
      obtain ⟨i, hi⟩ := List.getElem?_of_mem hu
      simp only [adoptOne, List.getElem?_modify] at hi
      cases hx : w.objs[i]? with
      | none => simp [hx] at hi
      | some x =>
        simp only [hx, Option.map_eq_map, Option.map_some, Option.some.injEq] at hi
        split at hi
        · subst hi
          exact ⟨x, p, List.mem_of_getElem? hx, rfl⟩
        · subst hi
          exact ⟨x, p, List.mem_of_getElem? hx, rfl⟩
    · intro w0 hk hms
      exact h6 w0 (hk.modify (hms (k, o) (List.mem_cons_self ..)) _) fun e he => hms e (List.mem_cons_of_mem _ he)
    · intro w0 hk ht
      exact h7 w0 (hk.modify ht _) ht

theorem find_put (ms : List (String × Nat)) (k k' : String) (o : Nat) :
    (putMember ms k o).find? (·.1 = k') = if k = k' then some (k, o) else ms.find? (·.1 = k') := by
  unfold putMember
  split
  · rename_i ha
    induction ms with
    | nil => simp at ha
    | cons e rest ih =>
      by_cases he : e.1 = k
      · by_cases hk : k = k'
        · simp [he, hk]
        · simp only [List.map_cons, he, if_true, hk, if_false]
          have : e.1 ≠ k' := fun h => hk (he.symm.trans h)
          simp only [List.find?_cons, decide_false, this, hk]
          clear ih ha
          induction rest with
          | nil => rfl
          | cons x xs ih2 =>
            by_cases hx : x.1 = k
            · have : x.1 ≠ k' := fun h => hk (hx.symm.trans h)
              simp [hx, hk, ih2]
            · by_cases hx2 : x.1 = k'
              · simp [hx, hx2, Ne.symm hk]
              · simp [hx, hx2, ih2]
      · have ha' : rest.any (·.1 = k) = true := by simpa [he] using ha
        have ih' := ih ha'
        by_cases hk : e.1 = k'
        · have : k ≠ k' := fun h => he (hk.trans h.symm)
          have hk2 : ¬ k' = k := Ne.symm this
          simp only [List.map_cons, if_false, List.find?_cons, hk, hk2, decide_true, this]
        · simp only [List.map_cons, he, if_false, List.find?_cons, hk, decide_false]
          exact ih'
  · rename_i ha
    by_cases hk : k = k'
    · subst hk
      simp only [List.find?_append, if_true]
      have : ms.find? (·.1 = k) = none := by
        simp only [List.find?_eq_none]
        intro x hx
        simp only [List.any_eq_true, not_exists, not_and] at ha
        simpa using ha x hx
      simp [this]
    · simp [List.find?_append, hk]

theorem member_adopt (t : Nat) : ∀ (ms : List (String × Nat)) (w : World), t < w.colls.length → ∀ k,
    ((ms.map (·.1)).Nodup → ∀ o, (k, o) ∈ ms → member (adopt w t ms) t k = some o) ∧
    (k ∉ ms.map (·.1) → member (adopt w t ms) t k = member w t k)
  | [], w, _, k => ⟨fun _ o h => by (cases h), fun _ => rfl⟩
  | (k0, o0) :: rest, w, ht, k => by
    have ht' : t < (adoptOne w t k0 o0).colls.length := by
      simpa [adoptOne] using ht
    obtain ⟨h1, h2⟩ := member_adopt t rest _ ht' k
    have e : adopt w t ((k0, o0) :: rest) = adopt (adoptOne w t k0 o0) t rest := rfl
    have hone : member (adoptOne w t k0 o0) t k = if k0 = k then some o0 else member w t k := by
      simp only [member, adoptOne, List.getElem?_modify, if_true, List.getElem?_eq_getElem ht, Option.map_eq_map, Option.map_some, Option.bind_some, find_put]
      split
      · rfl
      · rfl
    rw [e]
    refine ⟨?_, ?_⟩
    · intro hn o ho
      obtain ⟨n1, n2⟩ := List.nodup_cons.1 hn
      rcases List.mem_cons.1 ho with h | h
      · simp only [Prod.mk.injEq] at h
        obtain ⟨rfl, rfl⟩ := h
        rw [h2 n1, hone, if_pos rfl]
      · exact h1 n2 o h
    · intro hk
      simp only [List.map_cons, List.mem_cons, not_or] at hk
      rw [h2 hk.2, hone, if_neg (Ne.symm hk.1)]

theorem separate_of_new {w w' : World} (hw : WorldOk w) (hfr : Frame w w') {o' : Nat} {v' : VarObj} (ho : w'.objs[o']? = some v')
    (hb : w.vals.length ≤ v'.val.buf) (hmb : ∀ mv, v'.mask = some mv → w.masks.length ≤ mv.buf) {a : Nat} (ha : a < w.objs.length) :
    Separate w' o' a := by
  intro va vb h1 h2
  rw [ho] at h1
  simp only [Option.some.injEq] at h1
  subst h1
  have h2' := hfr.objs _ _ (List.getElem?_eq_getElem ha)
  rw [h2] at h2'
  simp only [Option.some.injEq] at h2'
  subst h2'
  have hok := hw.objs _ (List.getElem_mem ha)
  refine ⟨fun e => ?_, fun ma mb e1 e2 e => ?_⟩
  · obtain ⟨b, hx, _⟩ := hok.1
    have := (List.getElem?_eq_some_iff.1 hx).1
    omega
  · obtain ⟨b, hx, _⟩ := (hok.2 mb e2).1
    have := (List.getElem?_eq_some_iff.1 hx).1
    have := hmb ma e1
    omega

theorem boundsOf_eq {w : World} {o c : Nat} {v : VarObj} {bn : String} (hv : w.objs[o]? = some v) (hp : v.parent = some c)
    (hb : v.bounds = some bn) : boundsOf w o = member w c bn := by
  simp [boundsOf, hv, hp, hb]

/-- A collection with a coordinate, its bounds and a masked variable. -/
def session : World where
  vals := [[10, 20, 30, 40], [5, 15, 15, 25, 25, 35, 35, 45], [7, 8, 9, 6]]
  masks := [[false, false, false, true]]
  dicts := [[("title", "source")]]
  objs := [{ name := "x", val := ⟨0, [0, 1, 2, 3]⟩, bounds := some "x_bnds", parent := some 0, attrs := [("units", "m")] },
    { name := "x_bnds", val := ⟨1, [0, 1, 2, 3, 4, 5, 6, 7]⟩, parent := some 0 },
    { name := "tas", val := ⟨2, [0, 1, 2, 3]⟩, mask := some ⟨0, [0, 1, 2, 3]⟩, parent := some 0 }]
  colls := [{ members := [("x", 0), ("x_bnds", 1), ("tas", 2)], attrs := some 0 }]

theorem session_ok : WorldOk session := by
  refine ⟨?_, ?_, ?_, ?_⟩
  · intro v hv
    simp only [session, List.mem_cons, List.not_mem_nil, or_false] at hv
    rcases hv with rfl | rfl | rfl
    · exact ⟨⟨_, rfl, by decide, by decide⟩, fun mv e => by cases e⟩
    · exact ⟨⟨_, rfl, by decide, by decide⟩, fun mv e => by cases e⟩
    · refine ⟨⟨_, rfl, by decide, by decide⟩, ?_⟩
      rintro mv ⟨rfl⟩
      exact ⟨⟨_, rfl, by decide, by decide⟩, rfl⟩
  · intro v hv d hd
    simp only [session, List.mem_cons, List.not_mem_nil, or_false] at hv
    rcases hv with rfl | rfl | rfl <;> (simp only [Option.some.injEq] at hd; subst hd; decide)
  · intro d cl hd e he
    cases d with
    | zero =>
      simp only [session, List.getElem?_cons_zero, Option.some.injEq] at hd
      subst hd
      simp only [List.mem_cons, List.not_mem_nil, or_false] at he
      rcases he with rfl | rfl | rfl <;> exact ⟨_, rfl, rfl, rfl⟩
    | succ d => simp [session] at hd
  · intro cl hcl
    simp only [session, List.mem_cons, List.not_mem_nil, or_false] at hcl
    subst hcl
    decide

end Ocgis.Alias
