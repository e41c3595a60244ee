import Verif.Proofs.EsmfConvert
/-! C97: fields and grids as ESMF objects and back. -/
namespace Ocgis.Props
open Ocgis Ocgis.Spec Ocgis.EsmfConvert Ocgis.Proofs
open Ocgis.Array (Arr Var broadcastVariable broadcastScope)
open Ocgis.Regrid (EGrid Method MaskArr createEsmfGrid)
open Ocgis.Coords (Corners cellCorners)

/-- **C97.** The ESMF field has longitude, latitude, the other dimensions and time, in this order, and at each position the value of
the variable at that position.  The variables of the field are as before. -/
theorem C97_values (f : EsmfConvert.Field) (v : DataVar) (size : String → Nat) (h : Convertible f v size) (name : Option String)
    (m : Method) (vm : Option MaskArr) (e : EGrid) (he : createEsmfGrid f.grid m vm = .ok e) :
    ∃ (ef : EField) (f' : EsmfConvert.Field), toEsmf f name m vm = (.ok ef, f') ∧ ef.grid = e ∧ ef.name = some (name.getD v.name) ∧
      ef.dtype = v.dtype ∧ ef.dimnames.take 2 = [f.xn, f.yn] ∧ ef.dimnames.Perm v.var.names ∧
      (∀ t n, f.time = some (t, n) → ef.dimnames.getLast? = some t) ∧ ef.data.shape = ef.dimnames.map size ∧
      (∀ pos : String → Nat, ef.data.elem (ef.dimnames.map pos) = valueAt v.var pos) ∧
      f'.vars.length = f.vars.length ∧ ∀ (i : Nat) (w w' : DataVar), f.vars[i]? = some w → f'.vars[i]? = some w' →
        w'.name = w.name ∧ w'.dtype = w.dtype ∧ w'.isData = w.isData ∧ (w.name ≠ v.name → w' = w) ∧
        (w.name = v.name → SameVariable size w'.var w.var) := by
  obtain ⟨data, x, h1, h2, h3, h4⟩ := toEsmf_ok h name he
  refine ⟨_, _, h4, rfl, rfl, rfl, rfl, (newOrder_perm h).symm, ?_, h2, h3, by simp [replaceVar], ?_⟩
  · intro t n ht
    simp only [newOrder, ht, Option.map_some, Option.toList_some, List.getLast?_concat]
  · intro i w w' hw hw'
    simp only [replaceVar, List.getElem?_map, hw, Option.map_some, Option.some.injEq] at hw'
    by_cases hn : w.name = v.name
    · rw [if_pos hn] at hw'
      subst hw'
      have hv : w = v := by
        have hvm : v ∈ f.vars := by
          have : v ∈ f.dataVars := by rw [h.only]; simp
          exact (List.mem_filter.1 this).1
        exact same_name h.names (List.mem_of_getElem? hw) hvm hn
      subst hv
      exact ⟨rfl, rfl, rfl, fun h => absurd rfl h, fun _ => h1⟩
    · rw [if_neg hn] at hw'
      subst hw'
      exact ⟨rfl, rfl, rfl, fun _ => rfl, fun h => absurd h hn⟩

/-- Sizes of the dimensions in the examples. -/
def convSize (n : String) : Nat := if n = "lon" then 3 else 2

theorem conv_tas : Convertible (convField (some ("time", 2)) tas) tas convSize where
  only := rfl
  names := by decide
  float := .inr rfl
  distinct := by decide
  shape := rfl
  maskShape := by intro m hm; cases hm; rfl
  lat := ⟨by decide, rfl⟩
  lon := ⟨by decide, rfl⟩
  axes := by decide
  time := by intro t n ht; cases ht; exact ⟨by decide, by decide, by decide, rfl⟩
  others := by intro w hw; cases hw with
    | head => exact ⟨by decide, rfl⟩
    | tail _ h => cases h

theorem conv_orog : Convertible (convField none orog) orog convSize where
  only := rfl
  names := by decide
  float := .inr rfl
  distinct := by decide
  shape := rfl
  maskShape := by intro m hm; cases hm; rfl
  lat := ⟨by decide, rfl⟩
  lon := ⟨by decide, rfl⟩
  axes := by decide
  time := by intro t n ht; cases ht
  others := by intro w hw; cases hw with
    | head => exact ⟨by decide, rfl⟩
    | tail _ h => cases h

example : ∃ e, createEsmfGrid (convField (some ("time", 2)) tas).grid .auto none = .ok e := ⟨_, rfl⟩

/-- **C97 (partial).** Converting to ESMF and back gives the variable with its dimensions and values, masked exactly where the grid
is, as the only data variable; the other variables of the field come along with their values, and with their masks if they are beside the grid.  Missing: the mask of
the variable itself (`C97_own_mask_counterexample`). -/
theorem C97_round_trip_partial (f : EsmfConvert.Field) (v : DataVar) (size : String → Nat) (h : Convertible f v size) (name : Option String)
    (m : Method) (vm : Option MaskArr) (e : EGrid) (he : createEsmfGrid f.grid m vm = .ok e) (hne : name.getD v.name ≠ f.maskName) :
    ∃ (ef : EField) (f' back : EsmfConvert.Field) (b : DataVar), toEsmf f name m vm = (.ok ef, f') ∧ fromEsmf ef = .ok back ∧
      back.dataVars = [b] ∧ b.name = name.getD v.name ∧ b.dtype = v.dtype ∧ b.var.names = v.var.names ∧
      b.var.value.shape = v.var.value.shape ∧ (∀ pos, valueAt b.var pos = valueAt v.var pos) ∧
      (∀ pos, Within size v.var.names pos → (MaskedThere b.var pos ↔ hides f.grid.hidden (pos f.yn) (pos f.xn) = true)) ∧
      back.time = f.time ∧ back.yn = f.yn ∧ back.xn = f.xn ∧
      ∀ w ∈ f.vars, w.name ≠ b.name → ∃ o ∈ back.vars, o.name = w.name ∧ o.dtype = w.dtype ∧ o.var.names = w.var.names ∧
        (∀ pos, Within size w.var.names pos → valueAt o.var pos = valueAt w.var pos) ∧
        (f.yn ∉ w.var.names → f.xn ∉ w.var.names → ∀ pos, MaskedThere o.var pos ↔ MaskedThere w.var pos) := by
  obtain ⟨data, x, h1, h2, h3, h4⟩ := toEsmf_ok h name he
  obtain ⟨back, others, b, b1, b2, b3, b4, b5, b6, b7, b8, b9, b10, b11, b12⟩ := fromEsmf_ok h (name.getD v.name) (m := m) (vm := vm) (e := e)
    h1 h2 hne
  refine ⟨_, _, back, b, h4, b1, ?_, b3, b4, b6, by rw [b7, h.shape], fun pos => by rw [b8, h3], b9, by rw [b2], by rw [b2], by rw [b2], ?_⟩
  · rw [b2]
    simp only [EsmfConvert.Field.dataVars, List.filter_append, List.filter_cons, b5, List.filter_nil, if_true]
    rw [List.filter_eq_nil_iff.2 (by intro o ho; simp [b10 o ho])]
    rfl
  · intro w hw hwn
    rw [b3] at hwn
    obtain ⟨w0, hw0⟩ : ∃ w0 : DataVar, w0 = if w.name = v.name then { v with var := x } else w := ⟨_, rfl⟩
    have hw0n : w0.name = w.name := by rw [hw0]; split <;> simp_all
    have hmem : ({ w0 with isData := false } : DataVar) ∈ ((({ f with grid := gridAfter f.grid m vm, vars := replaceVar f.vars { v with var := x } } :
        EsmfConvert.Field).vars.map fun w => { w with isData := false }).filter fun w => w.name ≠ name.getD v.name) := by
      rw [List.mem_filter, List.mem_map]
      refine ⟨⟨w0, ?_, rfl⟩, by simpa [hw0n] using hwn⟩
      simp only [replaceVar, List.mem_map]
      exact ⟨w, hw, hw0.symm⟩
    obtain ⟨i, hi, hiw⟩ := List.getElem_of_mem hmem
    have hi' : i < others.length := by rw [b11]; exact hi
    obtain ⟨c1, c2, c3, c4, c5⟩ := b12 i _ others[i] (by rw [List.getElem?_eq_getElem hi, hiw]) (List.getElem?_eq_getElem hi')
    refine ⟨others[i], by rw [b2]; exact List.mem_append_left _ (List.getElem_mem hi'), by rw [c1]; exact hw0n, ?_, ?_, ?_, ?_⟩ <;>
      by_cases hv : w.name = v.name
    all_goals
      have hvw : w.name = v.name → w = v := by
        intro hn
        have hvm : v ∈ f.vars := by
          have : v ∈ f.dataVars := by rw [h.only]; simp
          exact (List.mem_filter.1 this).1
        exact same_name h.names hw hvm hn
    · rw [c2, hw0, if_pos hv, hvw hv]
    · rw [c2, hw0, if_neg hv]
    · rw [c3, hw0, if_pos hv, hvw hv]; exact h1.names
    · rw [c3, hw0, if_neg hv]
    · intro pos hp
      rw [hvw hv] at hp
      unfold valueAt
      rw [c3, c4, hw0, if_pos hv]
      rw [hvw hv]
      exact h1.values pos (by rw [h1.names]; exact hp)
    · intro pos _
      unfold valueAt
      rw [c3, c4, hw0, if_neg hv]
    · intro hy
      rw [hvw hv] at hy
      exact absurd h.lat.1 hy
    · intro hy hx pos
      rw [c5 (by rw [hw0, if_neg hv]; exact hy) (by rw [hw0, if_neg hv]; exact hx) pos, hw0, if_neg hv]

example : ∃ e, createEsmfGrid (convField (some ("time", 2)) tas).grid .auto none = .ok e ∧
    (none : Option String).getD tas.name ≠ (convField (some ("time", 2)) tas).maskName := ⟨_, rfl, by decide⟩

/-- **C97.** Without bounds or a given mask the grid is left alone. -/
theorem C97_grid_kept (f : EsmfConvert.Field) (name : Option String) (m : Method) (h : m ≠ .conserve) (hb : m = .auto → f.grid.cells = none) :
    (toEsmf f name m none).2.grid = f.grid := by
  have hu : usesCorners f.grid m = false := by
    unfold usesCorners
    by_cases hm : m = .auto
    · simp [hm, hb hm]
    · simp [hm, h]
  have hg : gridAfter f.grid m none = f.grid := by
    unfold gridAfter
    rw [hu]
    simp
  unfold toEsmf
  split
  · rfl
  · split
    · rfl
    · exact hg
  · split
    · rfl
    · simp only
      split
      · exact hg
      · split <;> exact hg

/-- **C97.** More than one data variable is refused, and the field left alone. -/
theorem C97_several (f : EsmfConvert.Field) (name : Option String) (m : Method) (vm : Option MaskArr) (h : 1 < f.dataVars.length) :
    toEsmf f name m vm = (.error .valueError, f) := by
  unfold toEsmf
  match hd : f.dataVars with
  | [] => simp [hd] at h
  | [_] => simp [hd] at h
  | _ :: _ :: _ => rfl

example : 1 < ({ convField none orog with vars := [orog, tas] } : EsmfConvert.Field).dataVars.length := by decide

/-- **C97.** Values that are not floating point numbers are refused. -/
theorem C97_integers (f : EsmfConvert.Field) (v : DataVar) (name : Option String) (m : Method) (vm : Option MaskArr) (e : EGrid)
    (h : f.dataVars = [v]) (hd : v.dtype = .other) (he : createEsmfGrid f.grid m vm = .ok e) :
    (toEsmf f name m vm).1 = .error .keyError := by
  unfold toEsmf
  rw [h]
  simp only [he, hd, if_true]

example : (convField none { orog with dtype := .other }).dataVars = [{ orog with dtype := .other }] := rfl

/-- C97 is false of masks: what is masked in the variable but not on the grid is no longer masked. -/
theorem C97_own_mask_counterexample : ∃ (ef : EField) (f' back : EsmfConvert.Field) (b : DataVar),
    toEsmf (convField (some ("time", 2)) tas) none .auto none = (.ok ef, f') ∧ fromEsmf ef = .ok back ∧ back.dataVars = [b] ∧
      MaskedThere tas.var (fun n => if n = "lon" then 0 else 1) ∧ ¬ MaskedThere b.var (fun n => if n = "lon" then 0 else 1) := by
  refine ⟨_, _, _, _, rfl, rfl, rfl, ⟨_, rfl, by decide⟩, ?_⟩
  rintro ⟨m, hm, h⟩
  cases hm
  revert h
  decide

/-- C97 is false of the masks of the source: a variable over the grid, converted under another name and back, loses its own mask in the
source field too. -/
theorem C97_source_mask_counterexample : ∃ (ef : EField) (f' back : EsmfConvert.Field) (w : DataVar),
    toEsmf (convField none orog) (some "height") .auto none = (.ok ef, f') ∧ fromEsmf ef = .ok back ∧ sourceAfter ef back = [w] ∧
      w.name = "orog" ∧ MaskedThere orog.var (fun _ => 1) ∧ ¬ MaskedThere w.var (fun _ => 1) := by
  refine ⟨_, _, _, _, rfl, rfl, rfl, rfl, ⟨_, rfl, by decide⟩, ?_⟩
  rintro ⟨m, hm, h⟩
  cases hm
  revert h
  decide

/-- C97 is false of variables without time in a field that has one: they are refused. -/
theorem C97_no_time_counterexample : (toEsmf (convField (some ("time", 2)) orog) none .auto none).1.toBool = false ∧
    (toEsmf (convField none orog) none .auto none).1.toBool = true := ⟨rfl, rfl⟩

/-- C97 is false of fields without data variables that are given a name: the ESMF field cannot be converted back. -/
theorem C97_name_counterexample : ∃ (ef : EField) (f' : EsmfConvert.Field),
    toEsmf { convField none orog with vars := [] } (some "empty") .auto none = (.ok ef, f') ∧ fromEsmf ef = .error .valueError :=
  ⟨_, _, rfl, rfl⟩

/-- The same grid with bounds. -/
def bounded : Regrid.Grid := { grid23 with cells := some fun j i => ⟨(40 + 10 * (i : Rat), 10 * (j : Rat)), (50 + 10 * (i : Rat), 10 * (j : Rat)),
  (50 + 10 * (i : Rat), 10 + 10 * (j : Rat)), (40 + 10 * (i : Rat), 10 + 10 * (j : Rat))⟩ }

/-- C97 is false of grids with bounds: their coordinates are no longer vectors afterwards. -/
theorem C97_expanded_counterexample : bounded.vectorized = true ∧
    (toEsmf { convField none orog with grid := bounded } none .auto none).2.grid.vectorized = false := ⟨rfl, rfl⟩

/-! ## Grids -/

/-- **C97 (partial).** A grid with latitude first comes back from ESMF with its centres, its corners - up to whole turns, the second and the
last exchanged - and, by the names of the dimensions, its mask. -/
theorem C97_grid_partial (g : Regrid.Grid) (yn xn : String) (m : Method) (vm : Option MaskArr) (e : EsmfGrid)
    (h : toEsmfGrid g yn xn "ocgis_spatial_mask" m vm = .ok e) (hl : (g.vectorized || g.yx) = true) (hyx : yn ≠ xn) (hy : yn ≠ "corners")
    (hx : xn ≠ "corners") :
    ∃ b, fromEsmfGrid e = .ok b ∧ b.x.names = [yn, xn] ∧ b.y.names = [yn, xn] ∧ b.x.value.shape = [g.ny, g.nx] ∧
      b.y.value.shape = [g.ny, g.nx] ∧
      (∀ j i, j < g.ny → i < g.nx → b.x.value.elem [j, i] = g.x j i ∧ b.y.value.elem [j, i] = g.y j i) ∧
      (∀ cs, g.cells = some cs → m = .conserve ∨ m = .auto → Shared g.ny g.nx cs → (g.periodic = true → Closed g.ny g.nx cs) →
        ∃ bv, b.bounds = some bv ∧ bv.names = [yn, xn, "corners"] ∧ bv.value.shape = [g.ny, g.nx, 4] ∧
          ∀ j i, j < g.ny → i < g.nx →
            SamePlace (bv.value.elem [j, i, 0]) (cs j i).c0 ∧ SamePlace (bv.value.elem [j, i, 1]) (cs j i).c3 ∧
            SamePlace (bv.value.elem [j, i, 2]) (cs j i).c2 ∧ SamePlace (bv.value.elem [j, i, 3]) (cs j i).c1) ∧
      (∀ hid, g.hidden = some hid → ∃ mv, b.mask = .ok (some mv) ∧ ∀ j i, j < g.ny → i < g.nx →
        valueAt mv (posOf yn xn j i) = (hid j i || (match vm with | none => false | some v => v.get j i))) ∧
      (g.hidden = none → vm = none → b.mask = .ok none) := by
  have hg : g.rowsFirst = true := hl
  unfold toEsmfGrid at h
  split at h
  · cases h
  rename_i eg heg
  cases h
  obtain ⟨u, c, hu, hc, _, _, hegeq⟩ := createEsmfGrid_inv heg
  have hst : ∀ {α : Type} (q : Nat → Nat → α), Regrid.stored g.rowsFirst q = q := by intro α q; funext a b; simp [Regrid.stored, hg]
  have hxe : eg.x = fun i j => g.x j i := by rw [hegeq]; simp only [hst]
  have hye : eg.y = fun i j => g.y j i := by rw [hegeq]; simp only [hst]
  have hnx : eg.nx = g.nx := by rw [hegeq]
  have hny : eg.ny = g.ny := by rw [hegeq]
  obtain ⟨wx, x1, x2, x3, x4⟩ := transpose2 eg.x yn xn eg.ny eg.nx hyx
  obtain ⟨wy, y1, y2, y3, y4⟩ := transpose2 eg.y yn xn eg.ny eg.nx hyx
  have hrun : ∃ b, fromEsmfGrid ⟨eg, yn, xn, g.hidden.isSome || vm.isSome, g.hidden.map fun _ => "ocgis_spatial_mask"⟩ = .ok b ∧
      b.x = wx ∧ b.y = wy ∧ b.mask = backMask ⟨eg, yn, xn, g.hidden.isSome || vm.isSome, g.hidden.map fun _ => "ocgis_spatial_mask"⟩ ∧
      ∀ cc, eg.corner = some cc → ∃ bv, b.bounds = some bv ∧ bv.names = [yn, xn, "corners"] ∧ bv.value.shape = [eg.ny, eg.nx, 4] ∧
        ∀ j i k, bv.value.elem [j, i, k] = nthCorner (cellCorners (fullCorners eg cc) i j) k := by
    unfold fromEsmfGrid centreVar
    simp only [x1, y1]
    cases hcor : eg.corner with
    | none => exact ⟨_, rfl, rfl, rfl, rfl, by intro cc hcc; cases hcc⟩
    | some cc =>
      obtain ⟨wb, b1, b2, b3, b4⟩ := transpose3 (fun i j k => nthCorner (cellCorners (fullCorners eg cc) i j) k) yn xn "corners" eg.ny eg.nx 4
        hyx hy hx
      unfold cornerVar
      simp only [b1]
      refine ⟨_, rfl, rfl, rfl, rfl, ?_⟩
      intro cc' hcc'
      cases hcc'
      exact ⟨wb, rfl, b2, b3, b4⟩
  obtain ⟨b, r1, r2, r3, r4, r5⟩ := hrun
  refine ⟨b, r1, by rw [r2, x2], by rw [r3, y2], by rw [r2, x3, hnx, hny], by rw [r3, y3, hnx, hny], ?_, ?_, ?_, ?_⟩
  · intro j i _ _
    rw [r2, r3, x4, y4, hxe, hye]
    exact ⟨rfl, rfl⟩
  · intro cs hcs hm hsh hp
    obtain ⟨cc, hcc, hcell⟩ := C84_corners_partial g m vm eg hg cs hcs hm hsh hp heg
    obtain ⟨bv, v1, v2, v3, v4⟩ := r5 cc hcc
    refine ⟨bv, v1, v2, by rw [v3, hnx, hny], ?_⟩
    intro j i hj hi
    obtain ⟨q0, q1, q2, q3⟩ := hcell j i hj hi
    have hi0 : ∀ q, fullCorners eg cc i q = cc i q := by
      intro q
      unfold fullCorners
      rw [if_neg]
      simp only [Bool.and_eq_true, decide_eq_true_eq, not_and]
      intro _; omega
    have hi1 : ∀ q, fullCorners eg cc (i + 1) q = cc (eg.next i) q := by
      intro q
      unfold fullCorners EGrid.next
      split <;> simp_all
    simp only [v4, nthCorner, cellCorners, hi0, hi1]
    exact ⟨q0, q3, q2, q1⟩
  · intro hid hhid
    refine ⟨_, by rw [r4]; simp only [backMask, hhid, Option.map_some, Option.isSome_some, Bool.true_or, decide_true, Bool.and_true, if_true]; rfl, ?_⟩
    intro j i _ _
    have hue : eg.usable = u := by rw [hegeq]
    simp only [valueAt, List.map_cons, List.map_nil, posOf, if_true, if_neg (Ne.symm hyx), List.getD_cons_zero, List.getD_cons_succ, hue]
    cases vm with
    | none => rw [esmfUsable_none hu j i]; simp [hides, hhid]
    | some v => rw [esmfUsable_some hu j i]; simp [hides, hhid, Bool.or_comm]
  · intro h1 h2
    rw [r4]
    simp [backMask, h1]

example : ∃ e, toEsmfGrid bounded "lat" "lon" "ocgis_spatial_mask" .auto none = .ok e ∧ (bounded.vectorized || bounded.yx) = true := ⟨_, rfl, rfl⟩

example : Shared 2 3 (fun j i => (⟨(40 + 10 * (i : Rat), 10 * (j : Rat)), (50 + 10 * (i : Rat), 10 * (j : Rat)),
    (50 + 10 * (i : Rat), 10 + 10 * (j : Rat)), (40 + 10 * (i : Rat), 10 + 10 * (j : Rat))⟩ : Corners (Rat × Rat))) := by
  refine ⟨?_, ?_⟩ <;> intro i j _ _ <;> simp <;> ring

/-- C97 is false of the shape of the mask: it has longitude first, the coordinates latitude first. -/
theorem C97_mask_shape_counterexample : ∃ (e : EsmfGrid) (b : BackGrid) (mv : Var Bool),
    toEsmfGrid grid23 "lat" "lon" "ocgis_spatial_mask" .auto none = .ok e ∧ fromEsmfGrid e = .ok b ∧ b.mask = .ok (some mv) ∧
      b.x.value.shape = [2, 3] ∧ mv.value.shape = [3, 2] := ⟨_, _, _, rfl, rfl, rfl, rfl, rfl⟩

/-- C97 is false of mask variables with another name: the new grid refers to a variable it does not have. -/
theorem C97_mask_name_counterexample : ∃ (e : EsmfGrid) (b : BackGrid),
    toEsmfGrid grid23 "lat" "lon" "land" .auto none = .ok e ∧ fromEsmfGrid e = .ok b ∧ b.mask = .error .keyError := ⟨_, _, rfl, rfl, rfl⟩

/-- C97 is false of given masks: ESMF sees the cell as unusable, the grid that comes back has no mask. -/
theorem C97_value_mask_counterexample : ∃ (e : EsmfGrid) (b : BackGrid),
    toEsmfGrid { grid23 with hidden := none } "lat" "lon" "ocgis_spatial_mask" .auto (some ⟨2, 3, fun j i => j == 1 && i == 2⟩) = .ok e ∧
      e.grid.usable 2 1 = false ∧ fromEsmfGrid e = .ok b ∧ b.mask = .ok none := ⟨_, _, rfl, rfl, rfl, rfl⟩

/-- C97 is false of the order of corners: counter-clockwise cells come back clockwise. -/
theorem C97_clockwise_counterexample : ∃ (e : EsmfGrid) (b : BackGrid) (cs : Nat → Nat → Corners (Rat × Rat)) (bv : Var (Rat × Rat)),
    bounded.cells = some cs ∧ toEsmfGrid bounded "lat" "lon" "ocgis_spatial_mask" .auto none = .ok e ∧ fromEsmfGrid e = .ok b ∧
      b.bounds = some bv ∧ 0 < signedArea2 [(cs 0 0).c0, (cs 0 0).c1, (cs 0 0).c2, (cs 0 0).c3] ∧
      signedArea2 ([0, 1, 2, 3].map fun k => bv.value.elem [0, 0, k]) < 0 := by
  refine ⟨_, _, _, _, rfl, rfl, rfl, rfl, ?_, ?_⟩ <;> decide +kernel

/-! ## The converter -/

/-- **C97.** The converter gives the ESMF field of the first field with a data variable, made with the options given. -/
theorem C97_converter (pre post : List EsmfConvert.Field) (f : EsmfConvert.Field) (name : Option String) (m : Method) (vm : Option MaskArr)
    (hpre : ∀ p ∈ pre, p.dataVars = []) (hf : f.dataVars ≠ []) :
    convert (pre ++ f :: post) name (some m) vm = (toEsmf f name m vm).1.map some ∧ convert pre name (some m) vm = .ok none := by
  have h1 : pre.find? (fun f => !f.dataVars.isEmpty) = none := by
    rw [List.find?_eq_none]
    intro p hp
    simp [hpre p hp]
  have h2 : f.dataVars.isEmpty = false := by
    cases hd : f.dataVars with
    | nil => exact absurd hd hf
    | cons _ _ => rfl
  constructor
  · unfold convert
    rw [List.find?_append, h1, Option.none_or, List.find?_cons_of_pos (by simp [h2])]
    rfl
  · unfold convert
    rw [h1]

example : (convField none orog).dataVars ≠ [] ∧ ({ convField none orog with vars := [] } : EsmfConvert.Field).dataVars = [] :=
  ⟨by simp [convField, EsmfConvert.Field.dataVars, orog], rfl⟩

/-- C97 is false of the converter's documented default, `auto`: without the option there are no corners although the grid has
bounds. -/
theorem C97_converter_counterexample : ∃ (a b : EField),
    convert [{ convField none orog with grid := bounded }] none none none = .ok (some a) ∧
    convert [{ convField none orog with grid := bounded }] none (some .auto) none = .ok (some b) ∧
    a.grid.corner.isSome = false ∧ b.grid.corner.isSome = true := ⟨_, _, rfl, rfl, rfl, rfl⟩

/-- **C97.** Operations are accepted for this output exactly if there is one dataset at most, nothing is clipped or aggregated, and no more
than one geometry is selected unless the selection is united. -/
theorem C97_validate (o : Ops) : validateOps o = none ↔
    o.datasets ≤ 1 ∧ o.clip = false ∧ o.aggregate = false ∧ (∀ n, o.selected = some n → n ≤ 1 ∨ o.aggSelection = true) := by
  unfold validateOps
  by_cases hd : 1 < o.datasets
  · have hd' : ¬ o.datasets ≤ 1 := by omega
    simp [hd, hd']
  · have hd' : o.datasets ≤ 1 := by omega
    cases hs : o.selected with
    | none => cases hc : o.clip <;> cases ha : o.aggregate <;> simp [hd, hd']
    | some n =>
      by_cases hn : 1 < n
      · have hn' : ¬ n ≤ 1 := by omega
        cases hc : o.clip <;> cases ha : o.aggregate <;> cases hg : o.aggSelection <;> simp [hd, hd', hn, hn']
      · have hn' : n ≤ 1 := by omega
        cases hc : o.clip <;> cases ha : o.aggregate <;> cases hg : o.aggSelection <;> simp [hd, hd', hn, hn']

end Ocgis.Props
