import Verif.Proofs.SpatialSubset

namespace Ocgis.Props
open Ocgis Ocgis.SpatialSubset Ocgis.Spec

/-- **C59, partial**: for a field that is not on a rotated pole, with no wrapping of the output asked for, exact
arithmetic and coordinates that `Plain` describes: after any history of subsets with one object, whatever raised in
between, a subset that succeeds leaves the source with the coordinates and the coordinate system it had at the start,
and one that is refused by the checks of its arguments changes nothing.

Missing: subsets that raise later (`C59_raise_counterexample`), rotated poles, wrapping and rounding (the other
counterexamples). -/
theorem C59_success_partial {α : Type} (N : Num α) (reproject : Reproject α) (field : Field α)
    (hp : Plain N field.x) (hc : field.crs ≠ .rotatedPole) (out : Option Crs) (before : List (Request α))
    (r : Request α) :
    let op := (runAll N reproject (.fresh field out false) before).1
    (∀ s, (getSubset N reproject op r).2 = .ok s → (getSubset N reproject op r).1.field = field)
    ∧ (∀ e, validate r = .error e → getSubset N reproject op r = (op, .error e)) := by
  obtain ⟨h1, h2⟩ := runAll_tracks N reproject field.x hp field.crs hc out before (.fresh field out false)
    ⟨rfl, rfl, rfl, rfl⟩ (.restored rfl rfl)
  obtain ⟨g1, _, g3, g4⟩ := getSubset_tracks N reproject field.x hp field.crs hc out _ h1 h2 r
  refine ⟨fun s hs => ?_, g4⟩
  have hx := (g3 s hs).1
  have hcrs := g1.1
  generalize (getSubset N reproject _ r).1.field = f at hx hcrs
  cases f; cases field; simp only at hx hcrs; rw [hx, hcrs]

/-- **C59, partial**: under the same conditions, when every subset of a history succeeds or is refused by the checks
of its arguments, the source is as it was. -/
theorem C59_history_partial {α : Type} (N : Num α) (reproject : Reproject α) (field : Field α)
    (hp : Plain N field.x) (hc : field.crs ≠ .rotatedPole) (out : Option Crs) (rs : List (Request α))
    (hok : ∀ (i : Nat) r e, rs[i]? = some r → (runAll N reproject (.fresh field out false) rs).2[i]? = some (.error e) →
      ∃ e', validate r = .error e') :
    (runAll N reproject (.fresh field out false) rs).1.field = field := by
  suffices h : ∀ (op : Op α), SameSetup field.crs out op → op.field.x = field.x → op.select = none →
      (∀ (i : Nat) r e, rs[i]? = some r → (runAll N reproject op rs).2[i]? = some (.error e) →
        ∃ e', validate r = .error e') → (runAll N reproject op rs).1.field = field from
    h _ ⟨rfl, rfl, rfl, rfl⟩ rfl rfl hok
  clear hok
  induction rs with
  | nil =>
    intro op hs hx _ _
    obtain ⟨h1, -⟩ := hs
    show op.field = field
    generalize op.field = f at hx h1
    cases f; cases field; simp only at hx h1; rw [hx, h1]
  | cons r rs ih =>
    intro op hs hx hsel hok
    obtain ⟨g1, _, g3, g4⟩ := getSubset_tracks N reproject field.x hp field.crs hc out op hs (.restored hx hsel) r
    have hrest : ∀ (i : Nat) r' e, rs[i]? = some r' →
        (runAll N reproject (getSubset N reproject op r).1 rs).2[i]? = some (.error e) → ∃ e', validate r' = .error e' :=
      fun i r' e h1 h2 => hok (i + 1) r' e (by simpa using h1) (by simpa [runAll] using h2)
    cases hres : (getSubset N reproject op r).2 with
    | ok s => exact ih _ g1 (g3 s hres).1 (g3 s hres).2 hrest
    | error e =>
      obtain ⟨e', he'⟩ := hok 0 r e rfl (by simp [runAll, hres])
      have := g4 e' he'
      rw [this] at hrest
      show (runAll N reproject (getSubset N reproject op r).1 rs).1.field = field
      rw [this]
      exact ih _ hs hx hsel hrest

example : (runAll exact (fun _ _ _ => .error .valueError) (.fresh sample none false) [finds 0 1, misses, finds 1 3]).1.field.x
    = [-10, 20, 200] := by decide +kernel

/-- **C59 (arithmetic)**: with exact arithmetic on coordinates from −360 up, the conditions on the arithmetic hold. -/
theorem C59_exact_arithmetic (xs : List Rat) (h : ∀ x ∈ xs, -360 ≤ x) : Plain exact xs where
  apart := by intro x h; simp only [exact, decide_eq_true_eq, decide_eq_false_iff_not] at *; grind
  lifts := by
    intro x hx hn
    have := h x hx
    simp only [exact, decide_eq_true_eq, decide_eq_false_iff_not] at *; grind
  undone := by intro x _ _; simp only [exact]; grind

example : ∀ x ∈ ([-10, 20, 200] : List Rat), -360 ≤ x := by decide +kernel

/-- **C59 (what wrapping does)**: with wrapping asked for on a spherical, unwrapped, fresh field whose subset reaches
past 180 degrees, the source's coordinates inside the subset are changed: those above 180, which get 360 subtracted,
and those that were negative, which get 360 subtracted once more after having been moved above 180.  The others are
as they were. -/
theorem C59_wrap_exact {α : Type} (N : Num α) (reproject : Reproject α) (xs : List α)
    (hp : Plain N xs) (start stop : Nat) (r : Request α) (hv : validate r = .ok ()) (hk : known r.operation = true)
    (hf : ∀ ys, r.found ys = .ok (start, stop)) (hu : unwrapped N xs = true)
    (hw : unwrapped N (window start stop (xs.map fun x => if N.negative x then N.plus360 x else x)) = true)
    (i : Nat) (x : α) (hx : xs[i]? = some x) :
    (getSubset N reproject (.fresh { crs := .spherical, x := xs } none true) r).1.field.x[i]? = some
      (if start ≤ i ∧ i < stop then
        (if N.negative x then N.minus360 (wrapOne N (N.plus360 x)) else wrapOne N x)
      else x) := by
  have key : ∀ (op : Op α), op.field.crs = .spherical → op.outputCrs = none → op.wrap = true → op.rotated = none →
      op.field.x = applyAt N.plus360 (xs.map N.negative) xs →
      (op.select = some (xs.map N.negative) ∨ (op.select = none ∧ (xs.map N.negative).any id = false)) →
      prepareTarget N reproject (.fresh { crs := .spherical, x := xs } none true) = (op, .ok ()) →
      (getSubset N reproject (.fresh { crs := .spherical, x := xs } none true) r).1.field.x[i]? = some
      (if start ≤ i ∧ i < stop then
        (if N.negative x then N.minus360 (wrapOne N (N.plus360 x)) else wrapOne N x)
      else x) := by
    intro op h1 h2 h3 h4 h5 h6 h7
    rw [applyAt_map] at h5
    have hrb : rotateBack reproject op (.view start stop) = .ok (op.field.crs, .view start stop) := by
      rw [rotateBack, h4]
    have hwr : (op.wrap && decide (op.field.crs = .spherical)
        && unwrapped N ((Part.view start stop : Part α).values op.field.x)) = true := by
      rw [h3, h1, SpatialSubset.Part.values.eq_def]; dsimp only; rw [h5, hw]; rfl
    have hws : wrapSub N op op.field.crs (.view start stop) = ({ op with field := { op.field with
        x := op.field.x.zipIdx.map fun p => if inside start stop p.2 then wrapOne N p.1 else p.1 } },
        .view start stop) := by
      rw [wrapSub.eq_def, if_pos hwr]
    simp only [getSubset, hv, h7, hk, if_true, hf, hrb, hws, updateCrs, h2]
    have hget : (op.field.x.zipIdx.map fun p => if inside start stop p.2 then wrapOne N p.1 else p.1)[i]?
        = some (if inside start stop i then wrapOne N (if N.negative x then N.plus360 x else x)
            else (if N.negative x then N.plus360 x else x)) := by
      rw [h5]; simp [hx]
    have hxm : x ∈ xs := List.mem_of_getElem? hx
    have hin : inside start stop i = true ↔ start ≤ i ∧ i < stop := by simp [inside]
    rcases h6 with h6 | ⟨h6, h8⟩
    · simp only [finalizeTarget, h6, applyAt, List.getElem?_zipWith, hget, List.getElem?_map, hx, Option.map_some]
      by_cases hii : start ≤ i ∧ i < stop
      · rw [if_pos hii]
        have := hin.2 hii
        simp only [this, if_true]
        cases N.negative x <;> simp
      · rw [if_neg hii]
        have : inside start stop i = false := by
          cases hh : inside start stop i with
          | false => rfl
          | true => exact absurd (hin.1 hh) hii
        simp only [this]
        cases hn : N.negative x with
        | false => simp
        | true => simp [hp.undone x hxm hn]
    · have hn : N.negative x = false := by
        rw [List.any_eq_false] at h8
        have := h8 (N.negative x) (List.mem_map_of_mem hxm)
        simpa using this
      simp only [finalizeTarget, h6, hget, hn]
      by_cases hii : start ≤ i ∧ i < stop
      · rw [if_pos hii]
        simp [hin.2 hii]
      · rw [if_neg hii]
        have : inside start stop i = false := by
          cases hh : inside start stop i with
          | false => rfl
          | true => exact absurd (hin.1 hh) hii
        simp [this]
  by_cases hn : (xs.map N.negative).any id = true
  · refine key ⟨⟨.spherical, applyAt N.plus360 (xs.map N.negative) xs⟩, none, true, none, some (xs.map N.negative)⟩
      rfl rfl rfl rfl rfl (.inl rfl) ?_
    simp only [prepareTarget, Op.fresh, hu, if_true, hn]
  · have hn' : (xs.map N.negative).any id = false := by simpa using hn
    refine key (.fresh { crs := .spherical, x := xs } none true) rfl rfl rfl rfl ?_ (.inr ⟨rfl, hn'⟩) ?_
    · rw [applyAt_map]
      show xs = _
      rw [List.any_eq_false] at hn'
      conv => lhs; rw [← List.map_id xs]
      refine List.map_congr_left fun y hy => ?_
      have := hn' (N.negative y) (List.mem_map_of_mem hy)
      simp only [id_eq, Bool.not_eq_true] at this
      simp [this]
    · simp only [prepareTarget, Op.fresh, hu, if_true, hn', Bool.false_eq_true, if_false]

/-- **C59, counterexample (wrapping)**: a successful subset with wrapping leaves the source with −370 where it had
−10, and −160 where it had 200. -/
theorem C59_wrap_counterexample :
    (getSubset exact (fun _ _ _ => .error .valueError) (.fresh sample none true) (finds 0 3)).1.field.x = [-370, 20, -160] := by
  decide +kernel

/-- **C59 (refused arguments)**: no or several geometries, or a bounding box subset with an operation other than `intersects`,
are refused before anything is touched. -/
theorem C59_refused {α : Type} (N : Num α) (reproject : Reproject α) (op : Op α) (r : Request α)
    (h : r.geometries ≠ 1 ∨ (r.optimized = true ∧ r.operation ≠ "intersects")) :
    getSubset N reproject op r = (op, .error .valueError) := by
  have hv : validate r = .error .valueError := by
    unfold validate
    by_cases hg : r.geometries ≠ 1
    · rw [if_pos hg]
    · rw [if_neg hg]
      rcases h with h | ⟨h1, h2⟩
      · exact absurd h hg
      · rw [if_pos]; simp [h1, h2]
  simp only [getSubset, hv]

example : ({ finds 0 3 with geometries := 2 } : Request Rat).geometries ≠ 1 := by decide

/-- **C59, counterexample (raise)**: a subset whose geometry meets nothing leaves the source shifted, and so does an
operation that is not supported. -/
theorem C59_raise_counterexample :
    (getSubset exact (fun _ _ _ => .error .valueError) (.fresh sample none false) misses).1.field.x = [350, 20, 200]
    ∧ (getSubset exact (fun _ _ _ => .error .valueError) (.fresh sample none false)
        { finds 0 3 with operation := "touches" }).1.field.x = [350, 20, 200] := by
  decide +kernel

/-- **C59, counterexample (rotated pole)**: whatever the transformation gives is what a rotated pole source is left
with, together with the other coordinate system, also when the subset succeeds. -/
theorem C59_rotated_counterexample {α : Type} (N : Num α) (reproject : Reproject α) (xs ys zs : List α) (start stop : Nat)
    (h : reproject .rotatedPole .spherical xs = .ok ys)
    (hb : reproject .spherical .rotatedPole (window start stop ys) = .ok zs) (r : Request α) (hv : validate r = .ok ())
    (hk : known r.operation = true) (hf : ∀ zs, r.found zs = .ok (start, stop)) :
    getSubset N reproject (.fresh { crs := .rotatedPole, x := xs } none false) r
      = ({ (Op.fresh { crs := .spherical, x := ys } none false) with rotated := some .rotatedPole }, .ok (.own zs)) := by
  simp only [getSubset, hv, prepareTarget, Op.fresh, h, hk, if_true, hf, rotateBack, Part.values, hb, Except.map, wrapSub,
    Bool.false_and, Bool.false_eq_true, if_false, updateCrs, finalizeTarget]

example : (getSubset exact (fun _ _ xs => .ok (xs.map (· + 1))) (.fresh { sample with crs := .rotatedPole } none false)
    (finds 0 3)).1.field.x = [-9, 21, 201] := by decide +kernel

/-- **C59, counterexample (rounding)**: with sums rounded as doubles are, a successful subset may leave a source
coordinate different from what it was. -/
theorem C59_rounding_counterexample :
    (getSubset doubles (fun _ _ _ => .error .valueError)
      (.fresh { crs := .spherical, x := [-1 / 100000000000000000000, 20, 200] } none false) (finds 0 3)).1.field.x
      ≠ [-1 / 100000000000000000000, 20, 200] := by
  decide +kernel

/-- **C59, counterexample (below −360)**: a subset that raises and then one that succeeds leave a coordinate below −360
shifted, since only the last shift is remembered. -/
theorem C59_below_counterexample :
    (runAll exact (fun _ _ _ => .error .valueError) (.fresh { crs := .spherical, x := [-400, 20, 200] } none false)
      [misses, finds 0 3]).1.field.x = [-40, 20, 200] := by
  decide +kernel

end Ocgis.Props
