import Verif.Proofs.GridMask
import Verif.Props.Masks
/-!
# C110: The mask of a grid is the mask that was set
-/
namespace Ocgis.Props
open Ocgis.Array (Arr)
open Ocgis.Masks Ocgis.GridMask Ocgis.Spec Ocgis.Proofs.GridMask

/-- C110: a mask of the shape of the grid is accepted; however the mask is asked for then, it is the one that was set, and asking
changes nothing. The grid and all variables but the mask variable stay as they were, and a mask variable that was there is kept. -/
theorem C110_set_get (g : GridField) (hg : MaskReady g) (a : Arr Bool) (ha : a.shape = g.shape) :
    ∃ g', setGridMask g (.array a) false = .ok g' ∧ MaskReady g' ∧ SameGrid g g' ∧
      (∀ create check, getMask g' create check = .ok (g', some a.elem)) ∧
      (∀ k, g'.mask ≠ some k → g'.vars.lookup k = g.vars.lookup k) ∧ (∀ n, g.mask = some n → g'.mask = some n) := by
  obtain ⟨g', n, v, h, hr, rfl, hn, hrole, hmask, -, -, -⟩ := set_array hg a ha
  refine ⟨_, ?_, hr, ⟨rfl, rfl, rfl, rfl⟩, ?_, ?_, ?_⟩
  · simp only [setGridMask, h]
  · intro c k
    exact getMask_have (n := n) (v := v) rfl (by simp [lookup_put]) hrole hmask c k
  · intro k hk
    simp only [lookup_put]
    rw [if_neg (fun e => hk (by rw [e]))]
  · intro j hj
    rcases hn with hn | ⟨hn, -⟩
    · rw [← hj, hn]
    · rw [hn] at hj; cases hj

/-- C110: a mask of another shape is refused. -/
theorem C110_wrong_shape (g : GridField) (hg : MaskReady g) (a : Arr Bool) (ha : a.shape ≠ g.shape) (casc : Bool) :
    setGridMask g (.array a) casc = .error .assertionError := by
  unfold setGridMask
  cases hm : g.mask with
  | none =>
    have hbad : newMask g (some a) = .error .assertionError := by
      simp [newMask, setMask_bad { name := maskName, names := g.names, shape := g.shape } a ha]
    simp only [setPlain, maskVariable_none hm, hbad]
  | some n =>
    obtain ⟨v, hv, hr, hns, hs⟩ := hg.mask n hm
    have hbad := setMask_bad v.var a (by rw [hs]; exact ha)
    simp only [setPlain, maskVariable_some hm hv, hbad]

/-- C110: after the mask is taken away there is none, and its variable is gone; everything else stays as it was. -/
theorem C110_remove (g : GridField) (hg : MaskReady g) (casc : Bool) :
    ∃ g', setGridMask g .nothing casc = .ok g' ∧ MaskReady g' ∧ SameGrid g g' ∧ g'.mask = none ∧
      (∀ check, getMask g' false check = .ok (g', none)) ∧ (∀ k, g.mask ≠ some k → g'.vars.lookup k = g.vars.lookup k) ∧
      (∀ k, g.mask = some k → g'.vars.lookup k = none) := by
  obtain ⟨g', h, hr, hm, hsame, hk, hk'⟩ := remove_ok hg
  refine ⟨g', ?_, hr, hsame, hm, getMask_absent hm, hk, hk'⟩
  cases casc <;> simp only [setGridMask, h]

/-- C110: asking for the mask without `create` changes nothing. With it, a grid that has no mask gets one that hides nothing, which is
shown from then on; the variables of the field stay as they were. -/
theorem C110_create (g : GridField) (hg : MaskReady g) :
    ∃ now, (∀ check, getMask g false check = .ok (g, now)) ∧ ∃ g', getMask g true false = .ok (g', some (now.getD fun _ => false)) ∧
      MaskReady g' ∧ SameGrid g g' ∧ (∀ c k, getMask g' c k = .ok (g', some (now.getD fun _ => false))) ∧
      (∀ k, g'.mask ≠ some k → g'.vars.lookup k = g.vars.lookup k) ∧ (g.mask = none → now = none) := by
  obtain ⟨now, g', h1, h2, h3, h4, ⟨n, v, e1, e2, e3, e4, -⟩, h6⟩ := get_create hg
  refine ⟨now, h1, g', h2, h3, h4, fun c k => getMask_have e1 e2 e3 e4 c k, h6, fun hm => ?_⟩
  have := h1 false
  rw [getMask_absent hm] at this
  injection this with this
  injection this with _ this
  exact this.symm

/-- C110: after any history of setting, removing and asking, the mask of the grid is the last one set, none if it was removed since,
and nothing hidden if one was asked for then. Only the mask variable changes. -/
theorem C110_history (g : GridField) (hg : MaskReady g) (now : Option (List Nat → Bool)) (hnow : getMask g false false = .ok (g, now))
    (ops : List Op) (hshape : ∀ a, Op.set a ∈ ops → a.shape = g.shape) :
    ∃ g', run g ops = .ok g' ∧ MaskReady g' ∧ SameGrid g g' ∧ (∀ check, getMask g' false check = .ok (g', maskAfter now ops)) ∧
      (∀ k, k ≠ "ocgis_spatial_mask" → g.mask ≠ some k → g'.vars.lookup k = g.vars.lookup k) := by
  suffices key : ∀ (g : GridField), MaskReady g → ∀ now, getMask g false false = .ok (g, now) → (∀ a, Op.set a ∈ ops → a.shape = g.shape) →
      ∃ g', run g ops = .ok g' ∧ MaskReady g' ∧ SameGrid g g' ∧ (∀ check, getMask g' false check = .ok (g', maskAfter now ops)) ∧
      (∀ k, k ≠ "ocgis_spatial_mask" → g.mask ≠ some k → g'.vars.lookup k = g.vars.lookup k) from key g hg now hnow hshape
  clear hnow hshape hg now g
  induction ops with
  | nil =>
    intro g hg now hnow _
    refine ⟨g, rfl, hg, ⟨rfl, rfl, rfl, rfl⟩, fun check => ?_, fun _ _ _ => rfl⟩
    obtain ⟨w, h1, -⟩ := C110_create g hg
    rw [h1 check]
    have := h1 false
    rw [hnow] at this
    injection this with this
    injection this with _ this
    rw [this]; rfl
  | cons o ops ih =>
    intro g hg now hnow hshape
    have go : ∀ (g1 : GridField) (now1 : Option (List Nat → Bool)), step g o = .ok g1 → MaskReady g1 → SameGrid g g1 →
        getMask g1 false false = .ok (g1, now1) → maskAfter now (o :: ops) = maskAfter now1 ops →
        (∀ k, k ≠ "ocgis_spatial_mask" → g.mask ≠ some k → g1.mask ≠ some k ∧ g1.vars.lookup k = g.vars.lookup k) →
        ∃ g', run g (o :: ops) = .ok g' ∧ MaskReady g' ∧ SameGrid g g' ∧
          (∀ check, getMask g' false check = .ok (g', maskAfter now (o :: ops))) ∧
          (∀ k, k ≠ "ocgis_spatial_mask" → g.mask ≠ some k → g'.vars.lookup k = g.vars.lookup k) := by
      intro g1 now1 hs hr hsame hget hlast hkeep
      obtain ⟨g', h1, h2, h3, h4, h5⟩ := ih g1 hr now1 hget (fun a h => by rw [hsame.2.1]; exact hshape a (List.mem_cons_of_mem _ h))
      refine ⟨g', ?_, h2, ?_, ?_, ?_⟩
      · simp only [run, hs, h1]
      · exact ⟨h3.1.trans hsame.1, h3.2.1.trans hsame.2.1, h3.2.2.1.trans hsame.2.2.1, h3.2.2.2.trans hsame.2.2.2⟩
      · intro check; rw [h4, hlast]
      · intro k hk hgk
        obtain ⟨e1, e2⟩ := hkeep k hk hgk
        rw [h5 k hk e1, e2]
    cases o with
    | set a =>
      obtain ⟨g1, n, v, hp, hr, rfl, hn, hrole, hmask, -, -, -⟩ := set_array hg a (hshape a (by simp))
      refine go _ (some a.elem) ?_ hr ⟨rfl, rfl, rfl, rfl⟩ ?_ rfl ?_
      · simp only [step, setGridMask, hp]
      · exact getMask_have (n := n) (v := v) rfl (by simp [lookup_put]) hrole hmask false false
      · intro k hk hgk
        have hkn : k ≠ n := by
          rintro rfl
          rcases hn with hn | ⟨-, hn⟩
          · exact hgk hn
          · exact hk hn
        exact ⟨fun e => hkn (Option.some.inj e).symm, by simp only [lookup_put, if_neg hkn]⟩
    | remove =>
      obtain ⟨g1, h, hr, hm, hsame, hk, -⟩ := remove_ok hg
      refine go g1 none ?_ hr hsame (getMask_absent hm false) rfl ?_
      · simp only [step, setGridMask, h]
      · intro k _ hgk
        exact ⟨by rw [hm]; simp, hk k hgk⟩
    | get c =>
      obtain ⟨w, g1, h1, h2, h3, h4, ⟨n, v, e1, e2, e3, e4, e5⟩, h6⟩ := get_create hg
      have hw : w = now := by
        have := h1 false
        rw [hnow] at this
        injection this with this
        injection this with _ this
        exact this.symm
      subst hw
      cases c with
      | false =>
        refine go g w ?_ hg ⟨rfl, rfl, rfl, rfl⟩ hnow rfl (fun k _ h => ⟨h, rfl⟩)
        simp only [step, hnow]
      | true =>
        refine go g1 (some (w.getD fun _ => false)) ?_ h3 h4 (getMask_have e1 e2 e3 e4 false false) rfl ?_
        · simp only [step, h2]
        · intro k hk hgk
          have hkn : k ≠ n := by
            rintro rfl
            rcases e5 with e5 | ⟨-, e5⟩
            · exact hgk e5
            · exact hk e5
          have hm1 : g1.mask ≠ some k := by rw [e1]; exact fun e => hkn (Option.some.inj e).symm
          exact ⟨hm1, h6 k hm1⟩

/-- A field with a grid of two by two cells: coordinates `x` and `y`, a variable over time and the grid, another over the grid. -/
def demoGrid : GridField :=
  { vars := [("x", ⟨{ name := "x", names := ["r", "c"], shape := [2, 2] }, false, fun i => i == [0, 0]⟩),
      ("y", ⟨{ name := "y", names := ["r", "c"], shape := [2, 2], mask := some fun i => i == [1, 1] }, false, fun _ => false⟩),
      ("tas", ⟨{ name := "tas", names := ["time", "r", "c"], shape := [3, 2, 2], mask := some fun i => i == [2, 0, 1] }, false, fun _ => false⟩),
      ("land", ⟨{ name := "land", names := ["r", "c"], shape := [2, 2], mask := some fun i => i == [0, 1] }, false, fun _ => false⟩)],
    mask := none, names := ["r", "c"], shape := [2, 2], coords := ["x", "y"], bounds := [] }

theorem demoGrid_ready : MaskReady demoGrid := by
  refine ⟨?_, fun n h => (by cases h), ?_⟩
  · intro k v h
    have := mem_of_lookup h
    simp only [demoGrid, List.mem_cons, Prod.mk.injEq, List.not_mem_nil, or_false] at this
    rcases this with ⟨rfl, rfl⟩ | ⟨rfl, rfl⟩ | ⟨rfl, rfl⟩ | ⟨rfl, rfl⟩ <;> rfl
  · intro h; exact absurd (by decide +kernel) h

example : ∃ g', run demoGrid [.get true, .set ⟨[2, 2], fun i => i == [0, 1]⟩, .get false, .remove, .set ⟨[2, 2], fun i => i == [1, 0]⟩] = .ok g' ∧
    ∃ m, getMask g' false false = .ok (g', some m) ∧ (m [1, 0], m [0, 1]) = (true, false) := by
  obtain ⟨g', h, -, -, hm, -⟩ := C110_history demoGrid demoGrid_ready none (getMask_absent rfl false)
    [.get true, .set ⟨[2, 2], fun i => i == [0, 1]⟩, .get false, .remove, .set ⟨[2, 2], fun i => i == [1, 0]⟩] (by
      intro a ha
      simp only [List.mem_cons, reduceCtorEq, Op.set.injEq, List.not_mem_nil, or_false, false_or] at ha
      rcases ha with rfl | rfl <;> rfl)
  exact ⟨g', h, _, hm false, by decide⟩

/-- C110 (coordinates that lie on the grid): a mask made from values hides exactly the cells one of whose coordinates is hidden or
missing. The other variables stay as they were, and coordinates hide what they hid. -/
theorem C110_check_partial (g : GridField) (hg : MaskReady g) (hm : g.mask = none) (hc : g.coords ≠ [] ∧ g.coords.Nodup)
    (hs : ∀ c ∈ g.coords, ∃ v, g.vars.lookup c = some v ∧ v.var.shape = g.shape) :
    ∃ g' m, getMask g true true = .ok (g', some m) ∧ MaskReady g' ∧ SameGrid g g' ∧
      (∀ idx, m idx = true ↔ ∃ c ∈ g.coords, ∃ v, g.vars.lookup c = some v ∧ Hides v idx) ∧
      (∀ c k, getMask g' c k = .ok (g', some m)) ∧
      (∀ k, k ∉ g.coords → g'.mask ≠ some k → g'.vars.lookup k = g.vars.lookup k) ∧
      (∀ c ∈ g.coords, ∀ v, g.vars.lookup c = some v → ∃ w, g'.vars.lookup c = some w ∧ ∀ idx, Hides w idx ↔ Hides v idx) := by
  obtain ⟨vars, m, h1, h2, h3, h4, h5, h6, h7⟩ := combine_ok g.shape g.coords g.vars none hc.2 (fun a h => by cases h) hs
  obtain ⟨a, rfl⟩ := Option.isSome_iff_exists.1 (h3 (.inl hc.1))
  have hd : maskName ∉ g.coords := by
    intro hin
    obtain ⟨v, hv, -⟩ := hs _ hin
    have := hg.default (by rw [show "ocgis_spatial_mask" = maskName from rfl, hv]; simp)
    rw [hm] at this; cases this
  have hnamed : ∀ k v, vars.lookup k = some v → v.var.name = k := by
    intro k v hk
    cases hl : g.vars.lookup k with
    | none => rw [h7 k hl] at hk; cases hk
    | some u =>
      obtain ⟨w, hw, hn, -⟩ := h6 k u hl
      rw [hk] at hw; cases hw
      rw [hn]; exact hg.named k u hl
  have hn := newMask_ok g a (h2 a rfl)
  refine ⟨{ g with vars := put maskName (fresh g (some a.elem)) vars, mask := some maskName }, a.elem, ?_,
    ready_put' vars hnamed maskName (fresh g (some a.elem)) rfl rfl rfl rfl rfl, ⟨rfl, rfl, rfl, rfl⟩, ?_, ?_, ?_, ?_⟩
  · unfold getMask
    simp only [maskVariable_none hm, if_true, h1, hn]
    rfl
  · intro idx
    have := h4 idx
    simpa [maskHas] using this
  · intro c k
    exact getMask_have (n := maskName) (v := fresh g (some a.elem)) rfl (by simp [lookup_put]) rfl rfl c k
  · intro k hk hmk
    simp only [lookup_put]
    rw [if_neg (fun e => hmk (by rw [e]))]
    exact h5 k hk
  · intro c hcc v hv
    obtain ⟨w, hw, -, hh⟩ := h6 c v hv
    refine ⟨w, ?_, hh⟩
    simp only [lookup_put]
    rw [if_neg (fun e : c = maskName => hd (e ▸ hcc))]
    exact hw

example : ∃ g' m, getMask demoGrid true true = .ok (g', some m) ∧ (m [0, 0], m [1, 1], m [0, 1]) = (true, true, false) :=
  ⟨_, _, rfl, by decide +kernel⟩

/-- C110 is false for a mask made from values on a grid whose two coordinates have one dimension each: it is never made. -/
theorem C110_check_never (g : GridField) (hm : g.mask = none) (x y : String) (hc : g.coords = [x, y]) (hxy : x ≠ y) (vx vy : GV) (nx ny : Nat)
    (hx : g.vars.lookup x = some vx) (hy : g.vars.lookup y = some vy) (hsx : vx.var.shape = [nx]) (hsy : vy.var.shape = [ny])
    (hs : g.shape.length = 2) : ∃ e, getMask g true true = .error e := by
  have hy' : (put x (varMask vx true true).1 g.vars).lookup y = some vy := by rw [lookup_put, if_neg (fun e => hxy e.symm)]; exact hy
  have hbad : ∀ a : Arr Bool, a.shape.length = 1 → newMask g (some a) = .error .assertionError := by
    intro a ha
    have : a.shape ≠ g.shape := fun e => by rw [e, hs] at ha; cases ha
    simp [newMask, setMask_bad { name := maskName, names := g.names, shape := g.shape } a this]
  cases hor : npOr ⟨vy.var.shape, (varMask vy true true).2.getD fun _ => false⟩ ⟨vx.var.shape, (varMask vx true true).2.getD fun _ => false⟩ with
  | error e =>
    refine ⟨e, ?_⟩
    unfold getMask
    simp only [maskVariable_none hm, if_true, hc, combine, hx, hy', hor]
  | ok a =>
    refine ⟨.assertionError, ?_⟩
    have hl : a.shape.length = 1 := by
      rw [hsx, hsy] at hor
      unfold npOr at hor
      split at hor
      · injection hor with hor; subst hor; rfl
      · simp only [List.reverse_cons, List.reverse_nil, List.nil_append, bdims, Option.map_some] at hor
        split at hor
        · cases hor
        · rename_i s hs'
          injection hor with hor; subst hor
          split at hs'
          · injection hs' with hs'; subst hs'; rfl
          · split at hs'
            · injection hs' with hs'; subst hs'; rfl
            · cases hs'
    unfold getMask
    simp only [maskVariable_none hm, if_true, hc, combine, hx, hy', hor, hbad a hl]

/-! ## Cascade -/

/-- One variable of the field under a cascaded mask of the grid. -/
theorem cascadeOne_grid (m : MVar) (ex : List String) (v : MVar) (ms : List Nat → Bool) (hm : m.mask = some ms)
    (hmn : m.names.Nodup) (hml : m.names.length = m.shape.length) (hvn : v.names.Nodup) (hvl : v.names.length = v.shape.length)
    (hsz : SameSizes m.names v.names m.shape v.shape) :
    ∃ w, cascadeOne m ex false v = .ok w ∧ ((v.name ∈ ex ∨ v.name = m.name ∨ ∀ n ∈ m.names, n ∉ v.names) → w = v) ∧
      (¬(v.name ∈ ex ∨ v.name = m.name ∨ ∀ n ∈ m.names, n ∉ v.names) → w.shape = v.shape ∧ w.names = v.names ∧
        (m.names = v.names → w.mask = some ms) ∧
        (m.names ≠ v.names → ∀ idx, IdxIn v.shape idx → (w.masked idx = true ↔ v.masked idx = true ∨
          ∃ s, IdxIn m.shape s ∧ ms s = true ∧ SameCoordinates m.names v.names s idx))) := by
  have hno : sliceMap m.names v.names = [] ↔ ∀ n ∈ m.names, n ∉ v.names := by simp [sliceMap]
  have hcond : (v.name ∈ ex ∨ m.name = v.name ∨ v.names = [] ∨ sliceMap m.names v.names = []) ↔
      (v.name ∈ ex ∨ v.name = m.name ∨ ∀ n ∈ m.names, n ∉ v.names) := by
    rw [hno]
    constructor
    · rintro (h | h | h | h)
      · exact .inl h
      · exact .inr (.inl h.symm)
      · exact .inr (.inr (by rw [h]; simp))
      · exact .inr (.inr h)
    · rintro (h | h | h)
      · exact .inl h
      · exact .inr (.inl h.symm)
      · exact .inr (.inr (.inr h))
  by_cases hc : v.name ∈ ex ∨ v.name = m.name ∨ ∀ n ∈ m.names, n ∉ v.names
  · exact ⟨v, by rw [cascadeOne, if_pos (hcond.2 hc)], fun _ => rfl, fun h => absurd hc h⟩
  · have hone : cascadeOne m ex false v = setMaskByVariable m v false := by rw [cascadeOne, if_neg (fun h => hc (hcond.1 h))]
    by_cases hn : m.names = v.names
    · have hshape : m.shape = v.shape := by
        apply List.ext_getElem?
        intro i
        by_cases hi : i < v.names.length
        · exact hsz i i _ (by rw [hn]; exact List.getElem?_eq_getElem hi) (List.getElem?_eq_getElem hi)
        · rw [hn] at hml
          rw [List.getElem?_eq_none (by omega), List.getElem?_eq_none (by omega)]
      refine ⟨{ v with mask := some ms }, ?_, fun h => absurd h hc, fun _ => ⟨rfl, rfl, fun _ => rfl, fun h => absurd hn h⟩⟩
      rw [hone]
      simp only [setMaskByVariable, hm, hn, if_true]
      exact setMask_ok v ⟨m.shape, ms⟩ hshape
    · obtain ⟨w, hw, h1, h2, h3⟩ := C34_cascade_partial m v false ms hm (.inl hn) hmn hvn hml hvl hsz
      exact ⟨w, by rw [hone, hw], fun h => absurd h hc, fun _ => ⟨h1, h2, fun h => absurd h hn, fun _ => h3⟩⟩

/-- Setting a mask with cascade. -/
theorem cascade_grid (g : GridField) (hg : MaskReady g) (ho : OneSize g) (a : Arr Bool) (ha : a.shape = g.shape) :
    ∃ g', setGridMask g (.array a) true = .ok g' ∧ SameGrid g g' ∧ (∀ c k, getMask g' c k = .ok (g', some a.elem)) ∧
      ∀ k v, g.vars.lookup k = some v → g'.mask ≠ some k → ∃ w, g'.vars.lookup k = some { v with var := w } ∧
        ((OfGrid g' k ∨ ∀ n ∈ g.names, n ∉ v.var.names) → w = v.var) ∧
        (¬(OfGrid g' k ∨ ∀ n ∈ g.names, n ∉ v.var.names) → w.shape = v.var.shape ∧ w.names = v.var.names ∧
          (g.names = v.var.names → w.mask = some a.elem) ∧
          (g.names ≠ v.var.names → ∀ idx, IdxIn v.var.shape idx → (w.masked idx = true ↔ v.var.masked idx = true ∨
            ∃ s, IdxIn g.shape s ∧ a.elem s = true ∧ SameCoordinates g.names v.var.names s idx))) := by
  obtain ⟨g1, n, u, hp, hr, rfl, hn, hrole, hmask, hns, hsh, hun⟩ := set_array hg a ha
  obtain ⟨⟨hgn, hgl⟩, hvars⟩ := ho
  have huv : ∀ e ∈ put n u g.vars, e.2.var.name = e.1 ∧ e.2.var.names.Nodup ∧ e.2.var.names.length = e.2.var.shape.length ∧
      SameSizes g.names e.2.var.names g.shape e.2.var.shape := by
    have hu : u.var.name = n ∧ u.var.names.Nodup ∧ u.var.names.length = u.var.shape.length ∧ SameSizes g.names u.var.names g.shape u.var.shape := by
      refine ⟨hun, by rw [hns]; exact hgn, by rw [hns, hsh]; exact hgl, ?_⟩
      intro i j s hi hj
      rw [hns] at hj
      obtain ⟨hi', hi''⟩ := List.getElem?_eq_some_iff.1 hi
      obtain ⟨hj', hj''⟩ := List.getElem?_eq_some_iff.1 hj
      have : i = j := (List.getElem_inj hgn).1 (hi''.trans hj''.symm)
      rw [this, hsh]
    intro e he
    have hmem : e = (n, u) ∨ e ∈ g.vars ∨ e.1 = n ∧ e.2 = u := by
      clear hvars hp hr
      generalize g.vars = l at he
      induction l with
      | nil => simp [put] at he; exact .inl he
      | cons d r ih =>
        obtain ⟨j, w⟩ := d
        by_cases hj : j = n
        · simp only [put, if_pos hj, List.mem_cons] at he
          rcases he with rfl | he
          · exact .inr (.inr ⟨hj, rfl⟩)
          · exact .inr (.inl (List.mem_cons_of_mem _ he))
        · simp only [put, if_neg hj, List.mem_cons] at he
          rcases he with rfl | he
          · exact .inr (.inl (by simp))
          · rcases ih he with h | h | h
            · exact .inl h
            · exact .inr (.inl (List.mem_cons_of_mem _ h))
            · exact .inr (.inr h)
    rcases hmem with rfl | h | ⟨h1, h2⟩
    · exact hu
    · exact hvars e h
    · rw [h1, h2]; exact hu
  have hone := fun (v : MVar) (h1 : v.names.Nodup) (h2 : v.names.length = v.shape.length) (h3 : SameSizes g.names v.names g.shape v.shape) =>
    cascadeOne_grid u.var (g.coords ++ g.bounds ++ [n]) v a.elem hmask (by rw [hns]; exact hgn) (by rw [hns, hsh]; exact hgl) h1 h2
      (by rw [hns, hsh]; exact h3)
  obtain ⟨l', hl, hl1, -⟩ := cascadeVars_ok u.var (g.coords ++ g.bounds ++ [n]) (put n u g.vars) (by
    intro e he
    obtain ⟨-, h1, h2, h3⟩ := huv e he
    obtain ⟨w, hw, -⟩ := hone e.2.var h1 h2 h3
    exact ⟨w, hw⟩)
  have hmv : GridField.maskVariable { g with vars := put n u g.vars, mask := some n } = .ok (some u) :=
    maskVariable_some rfl (by simp [lookup_put])
  have hself : l'.lookup n = some u := by
    obtain ⟨w, hw, hc⟩ := hl1 n u (by simp [lookup_put])
    have : cascadeOne u.var (g.coords ++ g.bounds ++ [n]) false u.var = .ok u.var := by
      rw [cascadeOne, if_pos (.inr (.inl rfl))]
    rw [this] at hc
    injection hc with hc
    rw [hw, ← hc]
  refine ⟨{ g with vars := l', mask := some n }, ?_, ⟨rfl, rfl, rfl, rfl⟩, ?_, ?_⟩
  · simp only [setGridMask, hp, hmv, Option.getD_some, hl]
  · intro c k
    exact getMask_have (n := n) (v := u) rfl hself hrole hmask c k
  · intro k v hk hkn
    have hne : k ≠ n := fun e => hkn (by rw [e])
    obtain ⟨w, hw, hc⟩ := hl1 k v (by rw [lookup_put, if_neg hne]; exact hk)
    obtain ⟨hkv, h1, h2, h3⟩ := hvars (k, v) (mem_of_lookup hk)
    obtain ⟨w', hw', e1, e2⟩ := hone v.var h1 h2 h3
    rw [hw'] at hc
    injection hc with hc
    subst hc
    simp only at hkv
    have hof : OfGrid { g with vars := l', mask := some n } k ∨ (∀ n ∈ g.names, n ∉ v.var.names) ↔
        (v.var.name ∈ g.coords ++ g.bounds ++ [n] ∨ v.var.name = u.var.name ∨ ∀ n ∈ u.var.names, n ∉ v.var.names) := by
      rw [hkv, hun, hns]
      simp only [OfGrid, List.mem_append, List.mem_singleton, Option.some.injEq]
      constructor
      · rintro ((h | h | h) | h)
        · exact .inl (.inl (.inl h))
        · exact .inl (.inl (.inr h))
        · exact absurd h.symm hne
        · exact .inr (.inr h)
      · rintro (((h | h) | h) | h | h)
        · exact .inl (.inl h)
        · exact .inl (.inr (.inl h))
        · exact absurd h hne
        · exact absurd h hne
        · exact .inr h
    refine ⟨w', hw, fun h => e1 (hof.1 h), fun h => ?_⟩
    obtain ⟨f1, f2, f3, f4⟩ := e2 (fun h' => h (hof.2 h'))
    rw [hns] at f3 f4
    rw [hsh] at f4
    exact ⟨f1, f2, f3, f4⟩

/-- C110 (variables that do not have exactly the dimensions of the grid, or have no mask of their own): with `cascade`, a mask of the
grid hides in every other variable exactly the elements over hidden cells, besides those it hid itself; coordinates, bounds and
variables off the grid stay as they were. -/
theorem C110_cascade_partial (g : GridField) (hg : MaskReady g) (ho : OneSize g) (a : Arr Bool) (ha : a.shape = g.shape) :
    ∃ g', setGridMask g (.array a) true = .ok g' ∧ SameGrid g g' ∧ (∀ c k, getMask g' c k = .ok (g', some a.elem)) ∧
      ∀ k v, g.vars.lookup k = some v → g'.mask ≠ some k → ∃ w, g'.vars.lookup k = some w ∧
        ((OfGrid g' k ∨ ∀ n ∈ g.names, n ∉ v.var.names) → w = v) ∧
        (¬OfGrid g' k → (∃ n ∈ g.names, n ∈ v.var.names) → v.var.names ≠ g.names ∨ v.var.mask = none → ∀ idx, IdxIn v.var.shape idx →
          (w.var.masked idx = true ↔ v.var.masked idx = true ∨
            ∃ s, IdxIn g.shape s ∧ a.elem s = true ∧ SameCoordinates g.names v.var.names s idx)) := by
  obtain ⟨g', h1, h2, h3, h4⟩ := cascade_grid g hg ho a ha
  refine ⟨g', h1, h2, h3, fun k v hk hm => ?_⟩
  obtain ⟨w, hw, e1, e2⟩ := h4 k v hk hm
  obtain ⟨-, hvn, hvl, hsz⟩ := ho.vars (k, v) (mem_of_lookup hk)
  simp only at hvn hvl hsz
  refine ⟨_, hw, fun h => by rw [e1 h], fun hno ⟨d, hd1, hd2⟩ hor idx hidx => ?_⟩
  · obtain ⟨f1, f2, f3, f4⟩ := e2 (fun h => h.elim hno (fun h => h d hd1 hd2))
    by_cases hn : g.names = v.var.names
    · have hnone : v.var.mask = none := hor.resolve_left (fun h => h hn.symm)
      have hshape : g.shape = v.var.shape := by
        apply List.ext_getElem?
        intro i
        by_cases hi : i < v.var.names.length
        · exact hsz i i _ (by rw [hn]; exact List.getElem?_eq_getElem hi) (List.getElem?_eq_getElem hi)
        · have := ho.grid.2
          rw [hn] at this
          rw [List.getElem?_eq_none (by omega), List.getElem?_eq_none (by omega)]
      simp only [MVar.masked, f3 hn, hnone, Bool.false_eq_true, false_or]
      constructor
      · intro h
        refine ⟨idx, by rw [hshape]; exact hidx, h, ?_⟩
        intro i j s hi hj
        rw [hn] at hi
        obtain ⟨hi', hi''⟩ := List.getElem?_eq_some_iff.1 hi
        obtain ⟨hj', hj''⟩ := List.getElem?_eq_some_iff.1 hj
        rw [(List.getElem_inj hvn).1 (hi''.trans hj''.symm)]
      · rintro ⟨s, hs, has, hsame⟩
        have : s = idx := by
          apply List.ext_getElem?
          intro i
          by_cases hi : i < v.var.names.length
          · exact hsame i i _ (by rw [hn]; exact List.getElem?_eq_getElem hi) (List.getElem?_eq_getElem hi)
          · have l1 := hs.1
            have l2 := hidx.1
            rw [hshape] at l1
            rw [List.getElem?_eq_none (by omega), List.getElem?_eq_none (by omega)]
        rw [← this]; exact has
    · exact f4 hn idx hidx

theorem demoGrid_sizes : OneSize demoGrid := by
  refine ⟨by decide, ?_⟩
  intro e he
  simp only [demoGrid, List.mem_cons, List.not_mem_nil, or_false] at he
  rcases he with rfl | rfl | rfl | rfl
  all_goals refine ⟨rfl, by decide, rfl, ?_⟩
  all_goals
    intro i j n hi hj
    match i, j with
    | 0, 0 => first | (simp_all [demoGrid]; done) | (simp [demoGrid] at hi hj; rw [← hj] at hi; exact absurd hi (by decide))
    | 0, 1 => simp_all [demoGrid]
    | 0, 2 => simp_all [demoGrid]
    | 0, j + 3 => simp_all [demoGrid]
    | 1, 0 => first | (simp_all [demoGrid]; done) | (simp [demoGrid] at hi hj; rw [← hj] at hi; exact absurd hi (by decide))
    | 1, 1 => simp_all [demoGrid]
    | 1, 2 => simp_all [demoGrid]
    | 1, j + 3 => simp_all [demoGrid]
    | i + 2, j => simp [demoGrid] at hi

example : ∃ g' w, setGridMask demoGrid (.array ⟨[2, 2], fun i => i == [1, 0]⟩) true = .ok g' ∧ g'.vars.lookup "tas" = some w ∧
    (w.var.masked [0, 1, 0], w.var.masked [2, 1, 0], w.var.masked [2, 0, 1], w.var.masked [0, 0, 1]) = (true, true, true, false) :=
  ⟨_, _, rfl, rfl, by decide +kernel⟩

/-- C110 is false for a variable that has exactly the dimensions of the grid and a mask of its own: with `cascade` it hides what the
grid hides and nothing else, so that what it hid itself shows again. -/
theorem C110_cascade_never (g : GridField) (hg : MaskReady g) (ho : OneSize g) (a : Arr Bool) (ha : a.shape = g.shape) (g' : GridField)
    (hset : setGridMask g (.array a) true = .ok g') (k : String) (v : GV) (hk : g.vars.lookup k = some v) (hm : ¬OfGrid g' k)
    (hn : v.var.names = g.names) (hne : g.names ≠ []) : ∃ w, g'.vars.lookup k = some w ∧ w.var.mask = some a.elem := by
  obtain ⟨g1, h1, h2, h3, h4⟩ := cascade_grid g hg ho a ha
  rw [hset] at h1
  injection h1 with h1
  subst h1
  obtain ⟨w, hw, -, e2⟩ := h4 k v hk (fun h => hm (.inr (.inr h)))
  obtain ⟨d, hd⟩ := List.exists_mem_of_ne_nil _ hne
  obtain ⟨-, -, f3, -⟩ := e2 (fun h => h.elim hm (fun h => h d hd (by rw [hn]; exact hd)))
  exact ⟨_, hw, f3 hn.symm⟩

example : ∃ g' w, setGridMask demoGrid (.array ⟨[2, 2], fun i => i == [1, 0]⟩) true = .ok g' ∧ g'.vars.lookup "land" = some w ∧
    w.var.masked [0, 1] = false := ⟨_, _, rfl, rfl, by decide +kernel⟩

/-! ## Masks from variables -/

/-- C110 (a variable that says it is a mask and is in no collection): set as the mask of the grid, its mask is the mask of the grid and
the other variables stay as they were. -/
theorem C110_variable_partial (g : GridField) (v : GV) (hr : v.role = true) :
    ∃ g', setGridMask g (.fromVar v []) false = .ok g' ∧ SameGrid g g' ∧ g'.mask = some v.var.name ∧ g'.vars.lookup v.var.name = some v ∧
      (∀ k, k ≠ v.var.name → g'.vars.lookup k = g.vars.lookup k) ∧ ∀ check, getMask g' false check = .ok (g', v.var.mask) := by
  refine ⟨{ g with vars := put v.var.name v g.vars, mask := some v.var.name }, rfl, ⟨rfl, rfl, rfl, rfl⟩, rfl, by simp [lookup_put], ?_, ?_⟩
  · intro k hk; simp only [lookup_put, if_neg hk]
  · intro check
    exact getMask_false (n := v.var.name) (v := v) rfl (by simp [lookup_put]) hr check

/-- C110 is false for a variable that does not say it is a mask: it is accepted, and the mask can never be asked for then. -/
theorem C110_no_role_never (g : GridField) (v : GV) (others : List GV) (hr : v.role = false) :
    ∃ g', setGridMask g (.fromVar v others) false = .ok g' ∧ ∀ create check, getMask g' create check = .error .valueError := by
  refine ⟨_, rfl, fun c k => ?_⟩
  have hmv : GridField.maskVariable { g with
      vars := put v.var.name v (others.foldl (fun l o => put o.var.name o l) g.vars), mask := some v.var.name } = .ok (some v) :=
    maskVariable_some rfl (by simp [lookup_put])
  unfold getMask
  simp only [hmv, hr, Bool.false_eq_true, if_false]

/-- C110 is false for a variable of a collection: the other variables of that collection take the place of those of the field that have
the same name. -/
theorem C110_clobber_never (g : GridField) (v : GV) (others : List GV) (hn : (others.map fun o => o.var.name).Nodup) (o : GV) (ho : o ∈ others)
    (hov : o.var.name ≠ v.var.name) :
    ∃ g', setGridMask g (.fromVar v others) false = .ok g' ∧ g'.vars.lookup o.var.name = some o := by
  refine ⟨_, rfl, ?_⟩
  simp only [lookup_put, if_neg hov]
  exact fold_put_last o others g.vars ho hn

example : ∃ g' w, setGridMask demoGrid (.fromVar ⟨{ name := "m", names := ["r", "c"], shape := [2, 2] }, true, fun _ => false⟩
      [⟨{ name := "tas", names := ["z"], shape := [9] }, false, fun _ => false⟩]) false = .ok g' ∧ g'.vars.lookup "tas" = some w ∧
    w.var.shape = [9] := ⟨_, _, rfl, rfl, rfl⟩

/-! ## SCRIP and ESMF unstructured files -/

/-- C110 (a file whose mask was neither read nor set): the mask of a SCRIP grid hides the cells whose value of `grid_imask` is zero,
however often it is asked for. -/
theorem C110_scrip_partial (v : FileMask) (hv : v.loaded = false) (own : Option (List Nat → Bool)) (ops : List ScripOp)
    (hops : ∀ o ∈ ops, o = .get) :
    ∃ s, Scrip.run ⟨some v, own, some "grid_imask"⟩ ops = .ok s ∧ ∃ s', s.getMask = .ok (s', some v.zero) := by
  suffices key : ∀ (ops : List ScripOp), (∀ o ∈ ops, o = .get) → ∀ w : FileMask, (w.loaded = false ∧ w.zero = v.zero ∨ w.loaded = true ∧ w.mask = some v.zero) →
      ∃ s, Scrip.run ⟨some w, own, some "grid_imask"⟩ ops = .ok s ∧ ∃ s', s.getMask = .ok (s', some v.zero) from
    key ops hops v (.inl ⟨hv, rfl⟩)
  clear hops ops
  intro ops
  induction ops with
  | nil =>
    intro _ w hw
    refine ⟨_, rfl, ?_⟩
    rcases hw with ⟨h1, h2⟩ | ⟨h1, h2⟩ <;> simp [Scrip.getMask, h1, h2]
  | cons o ops ih =>
    intro hops w hw
    have ho := hops o (by simp)
    subst ho
    have hrest := ih (fun o h => hops o (List.mem_cons_of_mem _ h))
    rcases hw with ⟨h1, h2⟩ | ⟨h1, h2⟩
    · obtain ⟨s, e1, e2⟩ := hrest { w.load with mask := some w.zero } (.inr ⟨by simp [FileMask.load, h1], by rw [h2]⟩)
      refine ⟨s, ?_, e2⟩
      rw [← e1]
      simp [Scrip.run, Scrip.step, Scrip.getMask, h1]
    · obtain ⟨s, e1, e2⟩ := hrest w (.inr ⟨h1, h2⟩)
      refine ⟨s, ?_, e2⟩
      rw [← e1]
      simp [Scrip.run, Scrip.step, Scrip.getMask, h1]

example : ∃ s m, Scrip.run ⟨some { zero := fun i => i == [1] }, none, some "grid_imask"⟩ [.get, .get] = .ok s ∧ s.getMask = .ok (s, some m) ∧
    (m [0], m [1]) = (false, true) := ⟨_, _, rfl, rfl, by decide⟩

/-- C110 is false once the values of `grid_imask` have been read: the mask of the grid hides missing values and never a zero. -/
theorem C110_scrip_read_never (v : FileMask) (hv : v.loaded = false ∧ v.mask = none) (own : Option (List Nat → Bool)) :
    ∃ s, Scrip.run ⟨some v, own, some "grid_imask"⟩ [.read] = .ok s ∧ s.getMask = .ok (s, v.missing) := by
  refine ⟨⟨some v.load, own, some "grid_imask"⟩, rfl, ?_⟩
  have h1 : v.load.loaded = true := by simp [FileMask.load, hv.1]
  have h2 : v.load.mask = v.missing := by
    cases h : v.missing <;> simp [FileMask.load, hv.1, hv.2, orMask, h]
  simp [Scrip.getMask, h1, h2]

/-- C110 is false for a mask set on a SCRIP grid before it is asked for: what is shown is the file's. -/
theorem C110_scrip_set_never (v : FileMask) (hv : v.loaded = false) (own : Option (List Nat → Bool)) (m : List Nat → Bool) :
    ∃ s s', Scrip.run ⟨some v, own, some "grid_imask"⟩ [.set m] = .ok s ∧ s.getMask = .ok (s', some v.zero) := by
  refine ⟨⟨some { v with mask := some m }, own, some "grid_imask"⟩,
    ⟨some { FileMask.load { v with mask := some m } with mask := some v.zero }, own, some "grid_imask"⟩, ?_, ?_⟩
  · simp [Scrip.run, Scrip.step, Scrip.setMask]
  · simp [Scrip.getMask, hv]

/-- C110 is false for a SCRIP grid without `grid_imask`: a mask is accepted, and can never be asked for then. -/
theorem C110_scrip_none_never (own : Option (List Nat → Bool)) (m : List Nat → Bool) :
    ∃ s, Scrip.run ⟨none, own, none⟩ [.set m] = .ok s ∧ s.getMask = .error .keyError := ⟨_, rfl, rfl⟩

/-- C110 is false for ESMF unstructured files: zeros of `elementMask` are never hidden, only missing values are. -/
theorem C110_esmf_never (v : FileMask) (hv : v.loaded = false ∧ v.mask = none) : (esmfMask v).2 = v.missing := by
  cases h : v.missing <;> simp [esmfMask, FileMask.load, hv.1, hv.2, orMask, h]

example : ((esmfMask { zero := fun i => i == [1] }).2).isNone = true := rfl

end Ocgis.Props
