import Verif.Proofs.Alias
/-!
# C85: copies, slices and deep copies of variables
-/
namespace Ocgis.Props
open Ocgis Ocgis.Alias

/-! ### Theorems -/

/-- **C85.** A variable that shares no memory with the variables written to is as if it were alone: whatever is done, in any order and any
number of times, to it and to variables it shares nothing with, its name, value, mask, attributes and bounds are what the operations on itself make of them. -/
theorem C85_separate {w : World} (hw : WorldOk w) (b : Nat) (ops : List (Nat × Op))
    (h : ∀ q, q ∈ ops → q.1 ≠ b → Separate w q.1 b) :
    contents (run w ops) b = (contents w b).map fun c => alone b c ops :=
  run_independent b ops w hw.objs fun q hq hne => .inl (h q hq hne)

/-- **C85.** Setting values, setting and updating masks and setting attributes replaces what the variable has: no other variable changes, not
even one that shares the arrays, such as a copy, a slice or the variable these were made of. -/
theorem C85_replacing {w : World} (hw : WorldOk w) (b : Nat) (ops : List (Nat × Op)) (h : ∀ q, q ∈ ops → q.2.replaces = true) :
    contents (run w ops) b = (contents w b).map fun c => alone b c ops :=
  run_independent b ops w hw.objs fun q hq _ => .inr (h q hq)

/-- **C85.** A copy of a collection is a new collection of new variables: the names are the same, in the same order, each variable has the same contents,
the attributes of the collection are the same, and nothing that existed is changed. -/
theorem C85_copy {w : World} (hw : WorldOk w) {c : Nat} {cl : Coll} (hc : w.colls[c]? = some cl) :
    WorldOk (copyColl w c).1 ∧ (copyColl w c).2 = w.colls.length ∧
    (∀ (a : Nat), a < w.objs.length → contents (copyColl w c).1 a = contents w a) ∧
    collAttrs (copyColl w c).1 (copyColl w c).2 = collAttrs w c ∧
    ∃ cl', (copyColl w c).1.colls[(copyColl w c).2]? = some cl' ∧ cl'.members.map (·.1) = cl.members.map (·.1) ∧
      ∀ k o, member w c k = some o → ∃ o', member (copyColl w c).1 (copyColl w c).2 k = some o' ∧ w.objs.length ≤ o' ∧
        contents (copyColl w c).1 o' = contents w o := by
  obtain ⟨h1, h2, h3, hd, ms, h4, h5, h6⟩ := cloneColl_ok shared_ok hw hc
  refine ⟨h3, h1, ?_, ?_, ⟨{ members := ms, attrs := cl.attrs }, ?_, h5, ?_⟩⟩
  · intro a ha
    exact h2.contents (List.getElem?_eq_getElem ha) (hw.objs _ (List.getElem_mem ha))
  · show collAttrs (cloneColl shared w c).1 (cloneColl shared w c).2 = _
    simp [collAttrs, h1, h4, hd, hc]
  · show (cloneColl shared w c).1.colls[(cloneColl shared w c).2]? = _
    rw [h1, h4]; simp
  · intro k o hm
    obtain ⟨v, hv, _⟩ := hw.mem hc ((member_iff hw hc).1 hm)
    obtain ⟨o', w0, a, b, cc, d, g⟩ := cloneColl_member shared_ok hw hm hv
    refine ⟨o', a, b, ?_⟩
    have hok := hw.objs v (List.mem_of_getElem? hv)
    rw [contents_look, contents_look, hv]
    show Option.map (look (cloneColl shared w c).1) ((cloneColl shared w c).1.objs[o']?) = _
    rw [d]
    exact congrArg some ((look_parent _ v _).trans (h2.look hok))

/-- **C85.** A slice of a collection has the same names. The variables with the dimension have the selected elements of the value and the mask,
the others all of them; name, attributes and bounds are the same, and so are the attributes of the collection. Nothing that existed is changed. -/
theorem C85_slice {w : World} (hw : WorldOk w) {c : Nat} {cl : Coll} (hc : w.colls[c]? = some cl) {sel : String → Option Sel} (hs : SelsOk sel) :
    WorldOk (sliceColl sel w c).1 ∧ (sliceColl sel w c).2 = w.colls.length ∧
    (∀ (a : Nat), a < w.objs.length → contents (sliceColl sel w c).1 a = contents w a) ∧
    collAttrs (sliceColl sel w c).1 (sliceColl sel w c).2 = collAttrs w c ∧
    ∃ cl', (sliceColl sel w c).1.colls[(sliceColl sel w c).2]? = some cl' ∧ cl'.members.map (·.1) = cl.members.map (·.1) ∧
      ∀ k o, member w c k = some o → ∃ o', member (sliceColl sel w c).1 (sliceColl sel w c).2 k = some o' ∧ w.objs.length ≤ o' ∧
        contents (sliceColl sel w c).1 o' =
          (contents w o).map fun x => match sel k with | none => x | some s => x.pick s.ps := by
  have hf := sliceFn_ok hs
  obtain ⟨h1, h2, h3, hd, ms, h4, h5, h6⟩ := cloneColl_ok hf hw hc
  refine ⟨h3, h1, ?_, ?_, ⟨{ members := ms, attrs := cl.attrs }, ?_, h5, ?_⟩⟩
  · intro a ha
    exact h2.contents (List.getElem?_eq_getElem ha) (hw.objs _ (List.getElem_mem ha))
  · show collAttrs (cloneColl (sliceFn sel) w c).1 (cloneColl (sliceFn sel) w c).2 = _
    simp [collAttrs, h1, h4, hd, hc]
  · show (cloneColl (sliceFn sel) w c).1.colls[(cloneColl (sliceFn sel) w c).2]? = _
    rw [h1, h4]; simp
  · intro k o hm
    obtain ⟨v, hv, hname, _⟩ := hw.mem hc ((member_iff hw hc).1 hm)
    obtain ⟨o', w0, a, b, cc, d, g⟩ := cloneColl_member hf hw hm hv
    refine ⟨o', a, b, ?_⟩
    have hok := cc.objOk (hw.objs v (List.mem_of_getElem? hv))
    have hok' := hf.ok w0 v hok
    rw [contents_look, contents_look, hv]
    show Option.map (look (cloneColl (sliceFn sel) w c).1) ((cloneColl (sliceFn sel) w c).1.objs[o']?) = _
    rw [d]
    simp only [Option.map_some, Option.some.injEq]
    rw [look_parent, g.look hok']
    have hname' : v.name = k := hname
    have e0 : look w0 v = look w v := cc.look (hw.objs v (List.mem_of_getElem? hv))
    subst hname'
    cases hsel : sel v.name with
    | none => simp only [sliceFn, hsel]; exact e0
    | some s => simp only [sliceFn, hsel]; rw [sliceObj_look (hs _ _ hsel) hok, e0]

/-- **C85.** A variable sliced by a list of indices or booleans shares no memory with any variable that existed. -/
theorem C85_fancy {w : World} (hw : WorldOk w) {c : Nat} {cl : Coll} (hc : w.colls[c]? = some cl) {sel : String → Option Sel} (hs : SelsOk sel)
    {k : String} {o : Nat} (hm : member w c k = some o) {s : Sel} (hk : sel k = some s) (hfancy : s.fancy = true) :
    ∃ o', member (sliceColl sel w c).1 (sliceColl sel w c).2 k = some o' ∧
      ∀ a, a < w.objs.length → Separate (sliceColl sel w c).1 o' a := by
  have hf := sliceFn_ok hs
  obtain ⟨h1, h2, h3, _, ms, h4, h5, h6⟩ := cloneColl_ok hf hw hc
  obtain ⟨v, hv, hname, _⟩ := hw.mem hc ((member_iff hw hc).1 hm)
  have hname' : v.name = k := hname
  subst hname'
  obtain ⟨o', w0, a, b, cc, d, g⟩ := cloneColl_member hf hw hm hv
  refine ⟨o', a, fun x hx => separate_of_new hw h2 d ?_ ?_ hx⟩
  · simp only [sliceFn, hk, sliceObj]
    split
    · simp only [sliceView, hfancy, if_true, fresh]
      exact cc.vals.le
    · simp only [sliceView, hfancy, if_true, fresh]
      exact cc.vals.le
  · intro mv
    simp only [sliceFn, hk, sliceObj]
    split
    · rename_i hmask
      simp [hmask]
    · rintro ⟨rfl⟩
      simp only [sliceView, hfancy, if_true, fresh]
      exact cc.masks.le

/-- **C85.** Two slices of a variable by ranges that have no place in common share no memory. -/
theorem C85_ranges {w : World} (hw : WorldOk w) {c : Nat} {cl : Coll} (hc : w.colls[c]? = some cl) {sel sel' : String → Option Sel} (hs : SelsOk sel)
    (hs' : SelsOk sel') {k : String} {o : Nat} (hm : member w c k = some o) {s s' : Sel} (hk : sel k = some s) (hk' : sel' k = some s')
    (hf : s.fancy = false) (hf' : s'.fancy = false) (hd : ∀ p, p ∈ s.ps → p ∉ s'.ps) :
    ∃ a a', member (sliceColl sel w c).1 (sliceColl sel w c).2 k = some a ∧
      member (sliceColl sel' (sliceColl sel w c).1 c).1 (sliceColl sel' (sliceColl sel w c).1 c).2 k = some a' ∧
      Separate (sliceColl sel' (sliceColl sel w c).1 c).1 a a' := by
  have hfn := sliceFn_ok hs
  have hfn' := sliceFn_ok hs'
  obtain ⟨h1, h2, h3, _⟩ := cloneColl_ok hfn hw hc
  obtain ⟨v, hv, hname, _⟩ := hw.mem hc ((member_iff hw hc).1 hm)
  have hname' : v.name = k := hname
  subst hname'
  obtain ⟨a, w0, m1, _, _, d, _⟩ := cloneColl_member hfn hw hm hv
  have hm' : member (cloneColl (sliceFn sel) w c).1 c v.name = some o := by
    simp only [member, h2.colls _ _ hc]
    simpa only [member, hc] using hm
  have hv' := h2.objs _ _ hv
  obtain ⟨a', w0', m1', _, _, d', _⟩ := cloneColl_member hfn' h3 hm' hv'
  obtain ⟨_, h2', _⟩ := cloneColl_ok hfn' h3 (h2.colls _ _ hc)
  refine ⟨a, a', m1, m1', ?_⟩
  have hok := hw.objs v (List.mem_of_getElem? hv)
  have key : ∀ (u : View), u.idx.Nodup → Disjoint { u with idx := pick s.ps u.idx } { u with idx := pick s'.ps u.idx } := by
    intro u hn _ i hi hi'
    simp only [pick, List.mem_filterMap] at hi hi'
    obtain ⟨p, hp, e⟩ := hi
    obtain ⟨q, hq, e'⟩ := hi'
    obtain ⟨l1, e1⟩ := List.getElem?_eq_some_iff.1 e
    obtain ⟨l2, e2⟩ := List.getElem?_eq_some_iff.1 e'
    rcases Nat.lt_trichotomy p q with hl | hl | hl
    · exact List.pairwise_iff_getElem.1 hn p q l1 l2 hl (e1.trans e2.symm)
    · exact hd p hp (hl ▸ hq)
    · exact List.pairwise_iff_getElem.1 hn q p l2 l1 hl (e2.trans e1.symm)
  intro va vb ha hb
  have ha' := h2'.objs _ _ d
  have hb' := d'
  have e1 : some va = some { (sliceFn sel w0 v).2 with parent := some w.colls.length } := ha.symm.trans ha'
  have e2 := hb.symm.trans hb'
  simp only [Option.some.injEq] at e1 e2
  have hval : ∀ (sl : String → Option Sel) (t : Sel) (x : World), sl v.name = some t → t.fancy = false →
      (sliceFn sl x v).2.val = { v.val with idx := pick t.ps v.val.idx } ∧
      (sliceFn sl x v).2.mask = v.mask.map fun mv => { mv with idx := pick t.ps mv.idx } := by
    intro sl t x h1 h2
    simp only [sliceFn, h1, sliceObj]
    split
    · rename_i hm
      simp [sliceView, h2, pick, hm]
    · rename_i mv hm
      simp [sliceView, h2, pick, hm]
  obtain ⟨q1, q2⟩ := hval sel s w0 hk hf
  obtain ⟨q1', q2'⟩ := hval sel' s' w0' hk' hf'
  subst e1 e2
  refine ⟨?_, ?_⟩
  · show Disjoint (sliceFn sel w0 v).2.val (sliceFn sel' w0' v).2.val
    rw [q1, q1']
    obtain ⟨_, _, hn, _⟩ := hok.1
    exact key v.val hn
  · intro ma mb hma hmb
    have hma' : (sliceFn sel w0 v).2.mask = some ma := hma
    have hmb' : (sliceFn sel' w0' v).2.mask = some mb := hmb
    rw [q2] at hma'
    rw [q2'] at hmb'
    cases hmask : v.mask with
    | none => simp [hmask] at hma'
    | some mv =>
      simp only [hmask, Option.map_some, Option.some.injEq] at hma' hmb'
      subst hma' hmb'
      obtain ⟨_, _, hn, _⟩ := (hok.2 mv hmask).1
      exact key mv hn

/-- **C85 (part).** A deep copy of a variable has the same contents and shares no memory with any variable that existed; the same is true of
its bounds. Nothing that existed is changed. Missing: the other variables of the copy's collection share their arrays (`C85_siblings_counterexample`), and the copy of a variable with
bounds is not the variable its own collection has (`C85_member_counterexample`). -/
theorem C85_deepcopy_partial {w : World} (hw : WorldOk w) {o : Nat} {v : VarObj} {c : Nat} (hv : w.objs[o]? = some v) (hp : v.parent = some c)
    (hm : member w c v.name = some o) :
    ∃ w' o', deepcopy w o = some (w', o') ∧ w.objs.length ≤ o' ∧ contents w' o' = contents w o ∧ (∀ u, u ∈ w'.objs → ObjOk w' u) ∧
      (∀ a, a < w.objs.length → contents w' a = contents w a ∧ Separate w' o' a) ∧
      ∀ b, boundsOf w o = some b → v.bounds ≠ some v.name → ∃ b', boundsOf w' o' = some b' ∧ w.objs.length ≤ b' ∧ contents w' b' = contents w b ∧
        ∀ a, a < w.objs.length → Separate w' b' a := by
  obtain ⟨w2, x2, hd, hpl⟩ := deepcopyPlain_ok hw hv hp hm
  obtain ⟨v2, hv2, hn2, hp2, hb2, hl2, hbuf2, hmbuf2⟩ := hpl.obj
  have hcl := hw.parents v (List.mem_of_getElem? hv) c hp
  have hcl' := List.getElem?_eq_getElem hcl
  have hc2 : w.colls.length < w2.colls.length := by rw [hpl.colls]; omega
  have hcl2 := List.getElem?_eq_getElem hc2
  cases hbo : boundsOf w2 x2 with
  | none =>
    have hdc : deepcopy w o = some (w2, x2) := by simp [deepcopy, hd, hbo]
    refine ⟨w2, x2, hdc, hpl.new, ?_, hpl.ok.objs, ?_, ?_⟩
    · rw [contents_look, contents_look, hv2, hv]; simp [hl2]
    · intro a ha
      exact ⟨hpl.frame.contents (List.getElem?_eq_getElem ha) (hw.objs _ (List.getElem_mem ha)), separate_of_new hw hpl.frame hv2 hbuf2 hmbuf2 ha⟩
    · intro b hb hne
      cases hbn : v.bounds with
      | none => simp [boundsOf, hv, hp, hbn] at hb
      | some bn =>
        rw [boundsOf_eq hv hp hbn] at hb
        obtain ⟨vb, hvb, _⟩ := hw.mem hcl' ((member_iff hw hcl').1 hb)
        have hkne : bn ≠ v.name := fun e => hne (by rw [hbn, e])
        obtain ⟨a', m1, _⟩ := hpl.others bn b vb hb hvb hkne
        rw [boundsOf_eq hv2 hp2 (hb2.trans hbn), m1] at hbo
        cases hbo
  | some ob =>
    cases hbn : v.bounds with
    | none => simp [boundsOf, hv2, hb2, hbn, hp2] at hbo
    | some bn =>
      have hbo2 := hbo
      rw [boundsOf_eq hv2 hp2 (hb2.trans hbn)] at hbo2
      obtain ⟨vb2, hvb2, hnb2, hpb2⟩ := hpl.ok.mem hcl2 ((member_iff hpl.ok hcl2).1 hbo2)
      simp only at hvb2 hnb2
      have hmb2 : member w2 w.colls.length vb2.name = some ob := by rw [hnb2]; exact hbo2
      obtain ⟨w4, b3, hd4, hpl4⟩ := deepcopyPlain_ok hpl.ok hvb2 hpb2 hmb2
      obtain ⟨v4, hv4, hn4, hp4, hb4, hl4, hbuf4, hmbuf4⟩ := hpl4.obj
      have hx4 : w4.objs[x2]? = some v2 := hpl4.frame.objs _ _ hv2
      have hc4 : w2.colls.length < w4.colls.length := by rw [hpl4.colls]; omega
      have hcl4 := List.getElem?_eq_getElem hc4
      obtain ⟨cl3, hcl3⟩ : ∃ cl3, w4.colls[w2.colls.length]? = some cl3 := ⟨_, hcl4⟩
      have hdc : deepcopy w o = some (adopt w4 w.colls.length cl3.members, x2) := by
        simp [deepcopy, hd, hbo, hd4, hx4, hv4, hp2, hp4, hcl3]
      obtain ⟨a1, a2, a3, a4, a5, a6, a7⟩ := adopt_ok w.colls.length cl3.members w4
      have hfr4 : Frame w w4 := hpl.frame.trans hpl4.frame
      have hfr : Frame w (adopt w4 w.colls.length cl3.members) :=
        ⟨by rw [a1]; exact hfr4.vals, by rw [a2]; exact hfr4.masks, by rw [a3]; exact hfr4.dicts,
          a6 w hfr4.objs fun e he => Nat.le_trans hpl.frame.objs.le (hpl4.news cl3 hcl3 e he), a7 w hfr4.colls (Nat.le_refl _)⟩
      have hlook : ∀ u, look (adopt w4 w.colls.length cl3.members) u = look w4 u := fun u => by simp only [look, a1, a2]
      have hoko : ∀ u, ObjOk w4 u → ObjOk (adopt w4 w.colls.length cl3.members) u := fun u hu =>
        ⟨a1 ▸ hu.1, fun mv e => ⟨a2 ▸ (hu.2 mv e).1, (hu.2 mv e).2⟩⟩
      obtain ⟨p, hxp, hxq⟩ := a4 x2 v2 hx4
      obtain ⟨p', hbp, _⟩ := a4 b3 v4 hv4
      refine ⟨_, x2, hdc, hpl.new, ?_, ?_, ?_, ?_⟩
      · rw [contents_look, contents_look, hxp, hv]
        simp only [Option.map_some, Option.some.injEq]
        rw [look_parent, hlook, hpl4.frame.look (hpl.ok.objs v2 (List.mem_of_getElem? hv2)), hl2]
      · intro u hu
        obtain ⟨u0, q, hu0, rfl⟩ := a5 u hu
        exact hoko { u0 with parent := q } (hpl4.ok.objs u0 hu0)
      · intro a ha
        exact ⟨hfr.contents (List.getElem?_eq_getElem ha) (hw.objs _ (List.getElem_mem ha)), separate_of_new hw hfr hxp hbuf2 hmbuf2 ha⟩
      · intro b hb hne
        rw [boundsOf_eq hv hp hbn] at hb
        obtain ⟨vb, hvb, _⟩ := hw.mem hcl' ((member_iff hw hcl').1 hb)
        have hkne : bn ≠ v.name := fun e => hne (by rw [e])
        obtain ⟨a', m1, _, m3⟩ := hpl.others bn b vb hb hvb hkne
        rw [hbo2] at m1
        simp only [Option.some.injEq] at m1
        subst m1
        rw [hvb2] at m3
        simp only [Option.some.injEq] at m3
        have hmem3 : (vb2.name, b3) ∈ cl3.members := (member_iff hpl4.ok hcl3).1 hpl4.member
        have hnod := hpl4.ok.keys cl3 (List.mem_of_getElem? hcl3)
        have hadm := (member_adopt w.colls.length cl3.members w4 (by omega) vb2.name).1 hnod b3 hmem3
        have hxpar : p = some w.colls.length := by
          rcases hxq with h | h
          · rw [h, hp2]
          · exact h
        refine ⟨b3, ?_, Nat.le_trans hpl.frame.objs.le hpl4.new, ?_, ?_⟩
        · rw [boundsOf_eq hxp hxpar (hb2.trans hbn), ← hnb2]; exact hadm
        · rw [contents_look, contents_look, hbp, hvb]
          simp only [Option.map_some, Option.some.injEq]
          rw [look_parent, hlook, hl4, m3, look_parent, hpl.frame.look (hw.objs vb (List.mem_of_getElem? hvb))]
        · intro a ha
          exact separate_of_new hw hfr hbp (Nat.le_trans hpl.frame.vals.le hbuf4) (fun mv e => Nat.le_trans hpl.frame.masks.le (hmbuf4 mv e)) ha

/-- **C85.** What is done to a deep copy does not reach any variable that existed, and what is done to these does not reach the copy. -/
theorem C85_session_partial {w : World} (hw : WorldOk w) {o : Nat} {v : VarObj} {c : Nat} (hv : w.objs[o]? = some v) (hp : v.parent = some c)
    (hm : member w c v.name = some o) :
    ∃ w' o', deepcopy w o = some (w', o') ∧
      (∀ ops : List (Nat × Op), (∀ q, q ∈ ops → q.1 = o') → ∀ a, a < w.objs.length → contents (run w' ops) a = contents w a) ∧
      ∀ ops : List (Nat × Op), (∀ q, q ∈ ops → q.1 < w.objs.length) → contents (run w' ops) o' = contents w o := by
  obtain ⟨w', o', h1, h2, h3, h4, h5, _⟩ := C85_deepcopy_partial hw hv hp hm
  refine ⟨w', o', h1, ?_, ?_⟩
  · intro ops hq a ha
    rw [run_independent a ops w' h4 fun q hq' _ => .inl (by rw [hq q hq']; exact (h5 a ha).2), (h5 a ha).1]
    have : ∀ x, alone a x ops = x := fun x => by
      have : ops.filter (·.1 = a) = [] := by
        simp only [List.filter_eq_nil_iff, decide_eq_true_eq]
        intro q hq' e
        have := hq q hq'
        omega
      simp [alone, this]
    cases contents w a <;> simp [this]
  · intro ops hq
    rw [run_independent o' ops w' h4 fun q hq' _ => .inl (h5 q.1 (hq q hq')).2.symm, h3]
    have : ∀ x, alone o' x ops = x := fun x => by
      have : ops.filter (·.1 = o') = [] := by
        simp only [List.filter_eq_nil_iff, decide_eq_true_eq]
        intro q hq' e
        have := hq q hq'
        omega
      simp [alone, this]
    cases contents w o <;> simp [this]

/-- **C85 (part).** The deep copy of a variable without bounds is the variable that its collection has under its name. -/
theorem C85_member_partial {w : World} (hw : WorldOk w) {o : Nat} {v : VarObj} {c : Nat} (hv : w.objs[o]? = some v) (hp : v.parent = some c)
    (hm : member w c v.name = some o) (hb : v.bounds = none) :
    ∃ w' o' v', deepcopy w o = some (w', o') ∧ w'.objs[o']? = some v' ∧ v'.parent = some w.colls.length ∧ member w' w.colls.length v.name = some o' := by
  obtain ⟨w2, x2, hd, hpl⟩ := deepcopyPlain_ok hw hv hp hm
  obtain ⟨v2, hv2, hn2, hp2, hb2, _⟩ := hpl.obj
  have hbo : boundsOf w2 x2 = none := by simp [boundsOf, hv2, hb2, hb, hp2]
  exact ⟨w2, x2, v2, by simp [deepcopy, hd, hbo], hv2, hp2, hpl.member⟩

/-- **C85, against the claim.** Elements assigned to a copy of a variable are assigned to the variable too. -/
theorem C85_copy_counterexample : ∃ w o w' o' op, WorldOk w ∧ copyVar w o = some (w', o') ∧ o ≠ o' ∧
    (contents w' o).map (·.val) = some [10, 20, 30, 40] ∧ (contents (step w' o' op) o).map (·.val) = some [0, 20, 30, 40] :=
  ⟨session, 0, (copyColl session 0).1, 3, .assign [(0, 0)] none, session_ok, rfl, by decide, rfl, rfl⟩

/-- **C85, against the claim.** The same for a slice by a range: the second element of `x[2:4]` is the fourth of `x`. -/
theorem C85_slice_counterexample : ∃ w o sel w' o' op, WorldOk w ∧ SelsOk sel ∧ sliceVar sel w o = some (w', o') ∧
    (contents w' o').map (·.val) = some [30, 40] ∧ (contents (step w' o' op) o).map (·.val) = some [10, 20, 30, 0] := by
  refine ⟨session, 0, fun n => if n = "x" then some ⟨false, [2, 3]⟩ else none, (sliceColl (fun n => if n = "x" then some ⟨false, [2, 3]⟩ else none) session 0).1, 3,
    .assign [(1, 0)] none, session_ok, ?_, rfl, rfl, rfl⟩
  intro n s h
  by_cases hn : n = "x"
  · simp only [hn, if_true, Option.some.injEq] at h
    subst h
    intro _
    decide
  · simp [hn] at h

/-- **C85, against the claim.** A mask that is set on a copy and reaches the other variables of the copy masks the elements of the
original's variables too, if these had a mask. -/
theorem C85_cascade_counterexample : ∃ w c places, WorldOk w ∧
    (contents (copyColl w c).1 2).bind (·.mask) = some [false, false, false, true] ∧
    (contents (cascadeColl places (copyColl w c).1 (copyColl w c).2) 2).bind (·.mask) = some [true, false, false, true] :=
  ⟨session, 0, fun n => if n = "tas" then some [0] else none, session_ok, rfl, rfl⟩

/-- **C85, against the claim.** An attribute set on a copy of a collection is set on the collection too. -/
theorem C85_attributes_counterexample : ∃ w c, WorldOk w ∧ collAttrs (copyColl w c).1 c = [("title", "source")] ∧
    collAttrs (setCollAttr (copyColl w c).1 (copyColl w c).2 "title" "copy") c = [("title", "copy")] :=
  ⟨session, 0, session_ok, rfl, rfl⟩

/-- **C85, against the claim.** The other variables in the collection of a deep copy share their arrays with the original's. -/
theorem C85_siblings_counterexample : ∃ w o w' o' p s op, WorldOk w ∧ deepcopy w o = some (w', o') ∧
    (w'.objs[o']?).bind (·.parent) = some p ∧ member w' p "tas" = some s ∧
    (contents w' 2).map (·.val) = some [7, 8, 9, 6] ∧ (contents (step w' s op) 2).map (·.val) = some [0, 8, 9, 6] := by
  exact ⟨session, 0, _, 3, 1, _, .assign [(0, 0)] none, session_ok, rfl, rfl, rfl, rfl, rfl⟩

/-- **C85, against the claim.** The deep copy of a variable with bounds is not the variable its own collection has under its name:
the values set on it are not in the slices made from it. -/
theorem C85_member_counterexample : ∃ w o w' o' p s sel op w'' t, WorldOk w ∧ deepcopy w o = some (w', o') ∧
    (w'.objs[o']?).bind (·.parent) = some p ∧ member w' p "x" = some s ∧ s ≠ o' ∧
    (contents (step w' o' op) o').map (·.val) = some [1, 2, 3, 4] ∧
    sliceVar sel (step w' o' op) o' = some (w'', t) ∧ (contents w'' t).map (·.val) = some [10, 20] :=
  ⟨session, 0, _, 3, 1, _, fun n => if n = "x" then some ⟨false, [0, 1]⟩ else none, .setValue [1, 2, 3, 4], _, _, session_ok, rfl, rfl, rfl,
    by decide, rfl, rfl, rfl⟩

/-! ### Cases -/

/-- C85_separate, C85_replacing: the variables of the collection share nothing, and a session with all kinds of operations. -/
example : Separate session 0 2 ∧ Separate session 0 1 ∧
    (contents (run session [(0, .assign [(1, 5)] (some [(1, true)])), (2, .setValue [1, 1, 1, 1]), (0, .updateMask [true, false, false, false])]) 0) =
      some ⟨"x", [10, 5, 30, 40], some [true, true, false, false], [("units", "m")], some "x_bnds"⟩ := by
  refine ⟨?_, ?_, rfl⟩
  · intro va vb h1 h2
    cases h1; cases h2
    exact ⟨fun e => by (cases e), fun _ _ e => by (cases e)⟩
  · intro va vb h1 h2
    cases h1; cases h2
    exact ⟨fun e => by (cases e), fun _ _ e => by (cases e)⟩

/-- C85_copy, C85_slice, C85_fancy: members of a copy and of slices. -/
example : member (copyColl session 0).1 1 "tas" = some 5 ∧
    contents (sliceColl (fun n => if n = "tas" then some ⟨true, [3, 3, 0]⟩ else none) session 0).1 5 =
      some ⟨"tas", [6, 6, 7], some [true, true, false], [], none⟩ := ⟨rfl, rfl⟩

/-- C85_deepcopy_partial, C85_session_partial, C85_member_partial: the hypotheses for a variable with bounds and for one without. -/
example : session.objs[0]? = some { name := "x", val := ⟨0, [0, 1, 2, 3]⟩, bounds := some "x_bnds", parent := some 0, attrs := [("units", "m")] } ∧
    member session 0 "x" = some 0 ∧ boundsOf session 0 = some 1 ∧ member session 0 "tas" = some 2 := ⟨rfl, rfl, rfl, rfl⟩

end Ocgis.Props
