import Verif.Spec.SpatialSubset
/-!
# Lemmas
-/
namespace Ocgis.Props
open Ocgis Ocgis.SpatialSubset Ocgis.Spec

/-- What a subset does to the source when it is not on a rotated pole and no wrapping is asked for. -/
inductive Tracks {α : Type} (N : Num α) (xs : List α) (op : Op α) : Prop where
  | restored (hx : op.field.x = xs) (hs : op.select = none)
  | shifted (hx : op.field.x = applyAt N.plus360 (xs.map N.negative) xs)
      (hs : op.select = some (xs.map N.negative)) (hu : unwrapped N xs = true) (hn : (xs.map N.negative).any id = true)

theorem applyAt_map {α : Type} (f : α → α) (p : α → Bool) (xs : List α) :
    applyAt f (xs.map p) xs = xs.map fun x => if p x then f x else x := by
  induction xs with
  | nil => rfl
  | cons x xs ih => simp only [applyAt, List.map_cons, List.zipWith_cons_cons] at ih ⊢; rw [ih]

theorem applyAt_undo {α : Type} (f g : α → α) (p : α → Bool) (xs : List α)
    (h : ∀ x ∈ xs, p x = true → g (f x) = x) : applyAt g (xs.map p) (applyAt f (xs.map p) xs) = xs := by
  induction xs with
  | nil => rfl
  | cons x xs ih =>
    have ih := ih fun y hy => h y (List.mem_cons_of_mem _ hy)
    simp only [applyAt, List.map_cons, List.zipWith_cons_cons] at ih ⊢
    rw [ih]
    cases hp : p x with
    | false => simp
    | true => simp [h x (List.mem_cons_self ..) hp]

theorem negative_shifted {α : Type} (N : Num α) (xs : List α) (h : Plain N xs) :
    ((applyAt N.plus360 (xs.map N.negative) xs).map N.negative).any id = false := by
  rw [applyAt_map, List.any_eq_false]
  intro b hb
  rw [List.mem_map] at hb
  obtain ⟨y, hy, rfl⟩ := hb
  rw [List.mem_map] at hy
  obtain ⟨x, hx, rfl⟩ := hy
  cases hn : N.negative x with
  | false => simp [hn]
  | true => simp [h.lifts x hx hn]

theorem prepare_tracks {α : Type} (N : Num α) (reproject : Reproject α) (xs : List α) (hp : Plain N xs) (op : Op α)
    (hc : op.field.crs ≠ .rotatedPole) (ht : Tracks N xs op) :
    (prepareTarget N reproject op).2 = .ok ()
    ∧ (prepareTarget N reproject op).1.field.crs = op.field.crs
    ∧ (prepareTarget N reproject op).1.wrap = op.wrap
    ∧ (prepareTarget N reproject op).1.outputCrs = op.outputCrs
    ∧ (prepareTarget N reproject op).1.rotated = op.rotated
    ∧ Tracks N xs (prepareTarget N reproject op).1 := by
  rw [prepareTarget.eq_def]
  cases hcrs : op.field.crs with
  | rotatedPole => exact absurd hcrs hc
  | other n => exact ⟨rfl, hcrs, rfl, rfl, rfl, ht⟩
  | spherical =>
    dsimp only
    by_cases hu : unwrapped N op.field.x = true
    · rw [if_pos hu]
      by_cases hn : (op.field.x.map N.negative).any id = true
      · rw [if_pos hn]
        refine ⟨rfl, hcrs, rfl, rfl, rfl, ?_⟩
        cases ht with
        | restored hx hs =>
          rw [hx] at hu hn
          exact .shifted (by dsimp only; rw [hx]) (by dsimp only; rw [hx]) hu hn
        | shifted hx hs hu' hn' =>
          rw [hx, negative_shifted N xs hp] at hn
          exact absurd hn (by simp)
      · rw [if_neg hn]; exact ⟨rfl, hcrs, rfl, rfl, rfl, ht⟩
    · rw [if_neg hu]; exact ⟨rfl, hcrs, rfl, rfl, rfl, ht⟩

theorem finalize_tracks {α : Type} (N : Num α) (xs : List α) (hp : Plain N xs) (op : Op α) (ht : Tracks N xs op) :
    (finalizeTarget N op).field = { crs := op.field.crs, x := xs } ∧ (finalizeTarget N op).select = none
    ∧ (finalizeTarget N op).wrap = op.wrap ∧ (finalizeTarget N op).outputCrs = op.outputCrs
    ∧ (finalizeTarget N op).rotated = op.rotated := by
  cases ht with
  | restored hx hs => simp only [finalizeTarget, hs]; exact ⟨by rw [← hx], trivial, trivial, trivial, trivial⟩
  | shifted hx hs hu hn =>
    simp only [finalizeTarget, hs, hx, applyAt_undo _ _ _ _ hp.undone]
    exact ⟨trivial, trivial, trivial, trivial, trivial⟩

/-- The same operation object with another field memory. -/
def SameSetup {α : Type} (crs : Crs) (out : Option Crs) (op : Op α) : Prop :=
  op.field.crs = crs ∧ op.outputCrs = out ∧ op.wrap = false ∧ op.rotated = none

theorem getSubset_tracks {α : Type} (N : Num α) (reproject : Reproject α) (xs : List α) (hp : Plain N xs) (crs : Crs)
    (hc : crs ≠ .rotatedPole) (out : Option Crs) (op : Op α) (hset : SameSetup crs out op) (ht : Tracks N xs op)
    (r : Request α) :
    SameSetup crs out (getSubset N reproject op r).1 ∧ Tracks N xs (getSubset N reproject op r).1
    ∧ (∀ s, (getSubset N reproject op r).2 = .ok s → (getSubset N reproject op r).1.field.x = xs
        ∧ (getSubset N reproject op r).1.select = none)
    ∧ (∀ e, validate r = .error e → (getSubset N reproject op r) = (op, .error e)) := by
  obtain ⟨h1, h2, h3, h4⟩ := hset
  rw [getSubset.eq_def]
  cases hv : validate r with
  | error e => exact ⟨⟨h1, h2, h3, h4⟩, ht, by simp, fun e' he => by cases he; rfl⟩
  | ok u =>
    obtain ⟨p1, p2, p3, p4, p5, p6⟩ := prepare_tracks N reproject xs hp op (by rw [h1]; exact hc) ht
    generalize hop : prepareTarget N reproject op = q at *
    obtain ⟨op1, res⟩ := q
    dsimp only at p1 p2 p3 p4 p5 p6 ⊢
    subst p1
    have hset1 : SameSetup crs out op1 := ⟨by rw [p2, h1], by rw [p4, h2], by rw [p3, h3], by rw [p5, h4]⟩
    dsimp only
    by_cases hk : known r.operation = true
    · rw [if_pos hk]
      cases hf : r.found op1.field.x with
      | error e => exact ⟨hset1, p6, by simp, by simp⟩
      | ok w =>
        obtain ⟨start, stop⟩ := w
        dsimp only
        have hrb : rotateBack reproject op1 (.view start stop) = .ok (op1.field.crs, .view start stop) := by
          rw [rotateBack, hset1.2.2.2]
        rw [hrb]
        dsimp only
        have hw : wrapSub N op1 op1.field.crs (.view start stop) = (op1, .view start stop) := by
          rw [wrapSub.eq_def, hset1.2.2.1]; simp
        rw [hw]
        dsimp only
        cases hu : updateCrs reproject op1 op1.field.crs (.view start stop) with
        | error e => exact ⟨hset1, p6, by simp, by simp⟩
        | ok s =>
          obtain ⟨f1, f2, f3, f4, f5⟩ := finalize_tracks N xs hp op1 p6
          refine ⟨⟨by dsimp only; rw [f1]; exact hset1.1, f4.trans hset1.2.1, f3.trans hset1.2.2.1, f5.trans hset1.2.2.2⟩,
            .restored (by dsimp only; rw [f1]) f2, fun _ _ => ⟨by dsimp only; rw [f1], f2⟩, by simp⟩
    · rw [if_neg hk]; exact ⟨hset1, p6, by simp, by simp⟩

theorem runAll_tracks {α : Type} (N : Num α) (reproject : Reproject α) (xs : List α) (hp : Plain N xs) (crs : Crs)
    (hc : crs ≠ .rotatedPole) (out : Option Crs) (rs : List (Request α)) (op : Op α) (hset : SameSetup crs out op)
    (ht : Tracks N xs op) :
    SameSetup crs out (runAll N reproject op rs).1 ∧ Tracks N xs (runAll N reproject op rs).1 := by
  induction rs generalizing op with
  | nil => exact ⟨hset, ht⟩
  | cons r rs ih =>
    obtain ⟨h1, h2, _⟩ := getSubset_tracks N reproject xs hp crs hc out op hset ht r
    exact ih _ h1 h2

theorem runAll_append {α : Type} (N : Num α) (reproject : Reproject α) (op : Op α) (rs ts : List (Request α)) :
    (runAll N reproject op (rs ++ ts)).1 = (runAll N reproject (runAll N reproject op rs).1 ts).1
    ∧ (runAll N reproject op (rs ++ ts)).2
      = (runAll N reproject op rs).2 ++ (runAll N reproject (runAll N reproject op rs).1 ts).2 := by
  induction rs generalizing op with
  | nil => exact ⟨rfl, rfl⟩
  | cons r rs ih =>
    obtain ⟨h1, h2⟩ := ih (getSubset N reproject op r).1
    exact ⟨h1, by simp only [List.cons_append, runAll, h2]⟩

theorem plain_sample : Plain exact sample.x where
  apart := by intro x h; simp only [exact, decide_eq_true_eq, decide_eq_false_iff_not] at *; grind
  lifts := by decide +kernel
  undone := by decide +kernel

end Ocgis.Props
