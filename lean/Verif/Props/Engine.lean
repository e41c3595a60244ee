import Verif.Proofs.Engine

/-!
# C67, C68, C69: the operations engine
-/

namespace Ocgis.Props
open Ocgis Ocgis.Engine Ocgis.Spec
open Ocgis.Vm (Vm Comm Prog freeSubcomm setSub setComm)

/-! ## C67 -/

/-- C67.  Whatever the statements run during an iteration do to the virtual machine, and whether or not they raise: the
exception passes, the communicator current when the engine was made is current again, the engine's own communicators are
gone, and every other communicator is what the statements left. -/
theorem C67_iteration (original : Option String) (body : Prog) (vm : Vm) (hd : ∀ vm', (Vm.run body vm).2 = vm' → vm'.dummy = false) :
    (iterate original body vm).1 = (Vm.run body vm).1 ∧
    (iterate original body vm).2.current = original ∧
    (∀ n ∈ ["FIELD_GET", "FIELD_SUBSET", "UGEOM_WRITE", "NONSPATIAL_SUBSET", "SPATIAL_AVERAGE"], (iterate original body vm).2.sub n = none) ∧
    (∀ n, n ∉ ["FIELD_GET", "FIELD_SUBSET", "UGEOM_WRITE", "NONSPATIAL_SUBSET", "SPATIAL_AVERAGE"] →
      (iterate original body vm).2.sub n = (Vm.run body vm).2.sub n) ∧
    (iterate original body vm).2.base = (Vm.run body vm).2.base := by
  have := hd _ rfl
  simp only [iterate, close, setComm, freeAll_spec _ _ this]
  simp only [true_and, and_true]
  refine ⟨?_, ?_⟩
  · intro n hn; exact if_pos hn
  · intro n hn; exact if_neg hn

example : ∃ vm : Vm, vm.dummy = false ∧ (Vm.run (.create "FIELD_SUBSET" [0] true true) vm).1 = none :=
  ⟨⟨0, false, .group [0, 1], fun _ => none, none⟩, rfl, by decide⟩

/-- C67 on the serial stand-in: the current communicator is restored too. -/
theorem C67_serial (original : Option String) (body : Prog) (vm : Vm) (hd : ∀ vm', (Vm.run body vm).2 = vm' → vm'.dummy = true) :
    iterate original body vm = ((Vm.run body vm).1, { (Vm.run body vm).2 with current := original }) := by
  simp only [iterate, close, setComm, freeAll_dummy _ _ (hd _ rfl)]

example : ∃ vm : Vm, (Vm.run (.create "FIELD_SUBSET" [0] true true) vm).2.dummy = true :=
  ⟨⟨0, true, .group [0], fun _ => none, none⟩, by decide⟩

/-- C67 is false for a run inside another one: the inner run frees the communicator the outer one is using. -/
theorem C67_nested_counterexample :
    let vm : Vm := ⟨0, false, .group [0, 1], fun n => if n = "FIELD_SUBSET" then some (.group [0]) else none, some "FIELD_SUBSET"⟩
    vm.comm = .ok (.group [0]) ∧ (iterate vm.current .skip vm).2.comm = .error .subcommNotFound := by decide

/-- C67 is false for an engine made in one scope and used in another: the second scope's communicator is not restored. -/
theorem C67_other_scope_counterexample :
    let vm : Vm := ⟨0, false, .group [0, 1], fun n => if n = "mine" then some (.group [0]) else none, some "mine"⟩
    let original : Option String := none
    vm.comm = .ok (.group [0]) ∧ (iterate original .skip vm).2.comm = .ok (.group [0, 1]) := by decide

/-! ## C68 -/

/-- C68 (partial: operations of `PromiseKept`, and one geometry for a rotated pole kept in its own system).  For all datasets and
geometries: the collections come dataset by dataset, geometry by geometry, up to the first one that selects nothing; each
is what the operations promise for its dataset and its geometry on their own, whatever was done before for others. -/
theorem C68_independent_partial (o : Ops) (gs : Option (List Geometry)) (ds : List Dataset)
    (h : ∀ d ∈ ds, ∀ f, d = .ok f → Fresh f ∧ PromiseKept o f ∧ RotatedOnce o gs f) (ha : o.allowEmpty = false) :
    collections o gs ds = untilError (ds.flatMap (promisedDataset o gs)) := by
  unfold collections
  generalize (none : Option Crs) = back
  induction ds generalizing back with
  | nil => rfl
  | cons d ds ih =>
    have ih := fun b => ih (fun d hd => h d (by simp [hd])) b
    rw [List.flatMap_cons, untilError_append]
    have hd : ∃ b, dataset o gs back d = ((untilError (promisedDataset o gs d)).1, (untilError (promisedDataset o gs d)).2, b) := by
      cases d with
      | error e => cases e <;> exact ⟨back, by simp [dataset, promisedDataset, untilError, ha]⟩
      | ok f =>
        obtain ⟨hf, hk, hr⟩ := h _ (by simp) f rfl
        have hr' : (∀ p, f.crs ≠ .rotated p) ∨ o.outputCrs ≠ none ∨ (passes gs).length ≤ 1 := by
          by_cases hp : ∃ p, f.crs = .rotated p
          · obtain ⟨p, hp⟩ := hp; exact Or.inr (hr p hp)
          · left; intro p hh; exact hp ⟨p, hh⟩
        obtain ⟨s', hs'⟩ := geometries_promised o f hf hk (passes gs) ⟨f, back⟩ rfl (Or.inl rfl) hr'
        refine ⟨s'.back, ?_⟩
        have : iterator gs = passes gs := by cases gs <;> rfl
        simp only [dataset, this, hs', promisedDataset]
    obtain ⟨b, hb⟩ := hd
    simp only [datasets, hb]
    cases hu : (untilError (promisedDataset o gs d)).2 with
    | some e => rfl
    | none => simp only [ih b]

example : Fresh ⟨.rotated 1, [0, 1, 2], true, false, false, false⟩ ∧
    PromiseKept ⟨false, true, false, true, true, false, some .geographic, false⟩ ⟨.rotated 1, [0, 1, 2], true, false, false, false⟩ ∧
    RotatedOnce ⟨false, true, false, true, true, false, some .geographic, false⟩ (some [⟨1, fun c => c < 2⟩, ⟨2, fun c => c > 0⟩])
      ⟨.rotated 1, [0, 1, 2], true, false, false, false⟩ :=
  ⟨⟨by decide, rfl, rfl, rfl⟩, ⟨rfl, rfl, fun _ _ => Or.inl rfl⟩, fun _ _ => Or.inl (by decide)⟩

example : collections {} (some [⟨1, fun c => c < 2⟩, ⟨2, fun c => c > 5⟩, ⟨3, fun c => c > 0⟩]) [.ok ⟨.projected 1, [0, 1, 2], true, false, false, false⟩] =
    ([(some 1, ⟨.projected 1, [0, 1], true, false, false, false⟩)], some .extentError) := by decide

/-- C68 with empty returns allowed (partial: nothing but the selection is kept): without calculations there is a collection for
every dataset and geometry, in order, with exactly the selected cells and the geometry's identifier. -/
theorem C68_allow_empty_partial (o : Ops) (gs : Option (List Geometry)) (fs : List Field) (ha : o.allowEmpty = true)
    (hc : o.hasCalc = false) :
    (collections o gs (fs.map .ok)).2 = none ∧
    (collections o gs (fs.map .ok)).1.map (fun out => (out.1, out.2.cells)) =
      fs.flatMap fun f => (passes gs).map fun g => (g.map (fun g => g.ugid), selected f g) := by
  unfold collections
  generalize (none : Option Crs) = back
  have hone : ∀ (f : Field) (l : List (Option Geometry)) (s : State), s.field.cells = f.cells → ∃ outs s',
      geometries o s l = (outs, none, s') ∧
      outs.map (fun out => (out.1, out.2.cells)) = l.map fun g => (g.map (fun g => g.ugid), selected f g) := by
    intro f l
    induction l with
    | nil => intro s _; exact ⟨[], s, rfl, rfl⟩
    | cons g l ih =>
      intro s hs
      have e1 : (rotatedPole o g.isSome s.field).field.cells = f.cells := by rw [rotatedPole_cells]; exact hs
      have hsel : ∃ f', select o (rotatedPole o g.isSome s.field) g = .ok (g.map (fun g => g.ugid), f') ∧ f'.cells = selected f g := by
        have hcut : ∃ f', cut o (rotatedPole o g.isSome s.field).field g = .ok f' ∧ f'.cells = selected f g := by
          cases g with
          | none => exact ⟨_, rfl, e1⟩
          | some g =>
            simp only [cut, subset, selected, e1, ha, if_true]
            split
            · exact ⟨_, rfl, by simp [*]⟩
            · exact ⟨_, rfl, rfl⟩
        obtain ⟨f', h1, h2⟩ := hcut
        refine ⟨f', ?_, h2⟩
        simp [select, h1, refine, ha, calculate, hc]
      obtain ⟨f', h1, h2⟩ := hsel
      obtain ⟨outs, s', h3, h4⟩ := ih _ e1
      exact ⟨_, s', by simp [geometries, oneGeometry, h1, h3]; rfl, by simp [h2, h4]⟩
  induction fs generalizing back with
  | nil => exact ⟨rfl, rfl⟩
  | cons f fs ih =>
    obtain ⟨outs, s', h1, h2⟩ := hone f (passes gs) ⟨f, back⟩ rfl
    have : iterator gs = passes gs := by cases gs <;> rfl
    simp only [List.map_cons, datasets, dataset, this, h1]
    obtain ⟨i1, i2⟩ := ih s'.back
    exact ⟨i1, by simp [h2, i2]⟩

/-- C68 is false for a field on a rotated pole and two geometries: the first result is on the rotated pole, the second is not. -/
theorem C68_rotated_pole_counterexample :
    collections {} (some [⟨1, fun c => c = 0⟩, ⟨2, fun c => c = 0⟩]) [.ok ⟨.rotated 7, [0, 1], true, false, false, false⟩] =
      ([(some 1, ⟨.rotated 7, [0], true, false, false, false⟩), (some 2, ⟨.geographic, [0], true, false, false, false⟩)], none) := by decide

/-- C68 is false when empty returns are allowed: a selection that is not empty is not aggregated, not regridded and keeps its
coordinate system. -/
theorem C68_allow_empty_counterexample :
    let o : Ops := { allowEmpty := true, aggregate := true, regrid := true, outputCrs := some .geographic }
    let f : Field := { crs := .projected 1, cells := [0, 1] }
    collections o (some [⟨1, fun c => c = 0⟩]) [.ok f] = ([(some 1, { f with cells := [0] })], none) ∧
    collections { o with allowEmpty := false } (some [⟨1, fun c => c = 0⟩]) [.ok f] =
      ([(some 1, { crs := .geographic, cells := [0], regridded := true, aggregated := true })], none) := by decide

/-- C68 is false for calculations on raw values without aggregation: the output coordinate system is ignored. -/
theorem C68_raw_counterexample :
    let o : Ops := { hasCalc := true, raw := true, outputCrs := some .geographic }
    let f : Field := { crs := .projected 1, cells := [0, 1] }
    collections o none [.ok f] = ([(none, { f with calculated := true })], none) ∧
    collections { o with raw := false } none [.ok f] = ([(none, { f with calculated := true, crs := .geographic })], none) := by decide

/-! ## C69 -/

/-- C69: what the loop does on all ranks.  Geometry `k` selects the cells of the ranks that every earlier geometry met. -/
theorem C69_live_ranks (parts : List (List Nat)) (live : List Nat) (gs : List Geometry) (k : Nat) (g : Geometry)
    (hg : gs[k]? = some g) :
    (parallel parts live gs)[k]? = some (((live.filter fun r => (gs.take k).all fun e => ((parts[r]?).getD []).any e.covers).map
      fun r => ((parts[r]?).getD []).filter g.covers).flatten) := by
  induction gs generalizing live k with
  | nil => simp at hg
  | cons e gs ih =>
    cases k with
    | zero =>
      simp only [List.getElem?_cons_zero, Option.some.injEq] at hg
      subst hg
      simp only [parallel, List.getElem?_cons_zero, List.take_zero, List.all_nil]
      rw [List.filter_eq_self.2 (by simp)]
    | succ k =>
      simp only [List.getElem?_cons_succ] at hg
      simp only [parallel, List.getElem?_cons_succ, List.take_succ_cons, List.all_cons]
      rw [ih _ _ hg, List.filter_filter]
      congr 4
      funext r
      exact Bool.and_comm _ _

/-- C69 (partial: every geometry but the last meets the part of every rank).  On any number of ranks the cells selected for a
geometry are those selected from the whole field, in order. -/
theorem C69_parallel_partial (parts : List (List Nat)) (gs : List Geometry)
    (h : ∀ e ∈ gs.dropLast, ∀ p ∈ parts, ∃ c ∈ p, e.covers c = true) :
    parallel parts (List.range parts.length) gs = gs.map fun g => parts.flatten.filter g.covers := by
  apply List.ext_getElem?
  intro k
  cases hg : gs[k]? with
  | none =>
    have hlen : ∀ (gs : List Geometry) (live : List Nat), (parallel parts live gs).length = gs.length := by
      intro gs
      induction gs with
      | nil => intro _; rfl
      | cons g gs ih => intro live; simp [parallel, ih]
    rw [List.getElem?_eq_none_iff] at hg
    rw [List.getElem?_eq_none (by rw [hlen]; exact hg), List.getElem?_eq_none (by simpa using hg)]
  | some g =>
    rw [C69_live_ranks parts _ gs k g hg, List.getElem?_map, hg, Option.map_some]
    congr 1
    rw [List.filter_eq_self.2]
    · rw [List.filter_flatten]
      congr 1
      apply List.ext_getElem?
      intro r
      simp only [List.getElem?_map]
      cases hr : parts[r]? with
      | none =>
        have : parts.length ≤ r := List.getElem?_eq_none_iff.1 hr
        rw [List.getElem?_eq_none (by simpa using this)]; rfl
      | some p =>
        have : r < parts.length := by
          rcases Nat.lt_or_ge r parts.length with h | h
          · exact h
          · rw [List.getElem?_eq_none h] at hr; cases hr
        rw [List.getElem?_range this]; simp [hr]
    · intro r hr
      rw [List.all_eq_true]
      intro e he
      have hr' : r < parts.length := by simpa using hr
      have hmem : e ∈ gs.dropLast := by
        have hk : k < gs.length := by
          rcases Nat.lt_or_ge k gs.length with h | h
          · exact h
          · rw [List.getElem?_eq_none h] at hg; cases hg
        rw [List.dropLast_eq_take]
        have : gs.take k = (gs.take (gs.length - 1)).take k := by rw [List.take_take]; congr 1; omega
        rw [this] at he
        exact List.mem_of_mem_take he
      obtain ⟨c, hc, hcc⟩ := h e hmem (parts[r]) (List.getElem_mem hr')
      rw [List.getElem?_eq_getElem hr', Option.getD_some, List.any_eq_true]
      exact ⟨c, hc, hcc⟩

example : ∀ e ∈ ([⟨1, fun c => c % 2 = 0⟩, ⟨2, fun c => c = 3⟩] : List Geometry).dropLast, ∀ p ∈ [[0, 1], [2, 3]], ∃ c ∈ p, e.covers c = true := by
  simp

/-- C69 is false in general: with one geometry on each of two ranks, the second geometry comes out empty. -/
theorem C69_disjoint_counterexample :
    parallel [[0, 1], [2, 3]] [0, 1] [⟨1, fun c => c < 2⟩, ⟨2, fun c => c ≥ 2⟩] = [[0, 1], []] ∧
    [0, 1, 2, 3].filter (fun c => decide (c ≥ 2)) = [2, 3] := by decide

end Ocgis.Props
