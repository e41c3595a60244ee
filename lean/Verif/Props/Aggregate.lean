import Verif.Proofs.Aggregate
/-!
# C43: temporal aggregation
-/
namespace Ocgis.Props
open Ocgis.Array Ocgis.Aggregate Ocgis.Spec

/-- C43: the output has one time step per group and the variable's other dimensions, and the value at any position is that of the function
of exactly the values of that group, in order, at the same realization, level and extra dimensions, taken at that row and column. The
variable's dimensions may be in any order, with any further dimensions and without some of the standard ones. -/
theorem C43_groups {α β : Type _} (f : List (Nat → Nat → Cell α) → Outcome β) (g : List (Nat → Nat → Cell α) → Nat → Nat → Cell β)
    (v : AVar α) (hn : v.names.Nodup) (htime : "time" ∈ v.names) (size : String → Nat)
    (hshape : v.arr.shape = v.names.map size) (hextra : ∀ n ∈ v.names, n ∉ standard → 0 < size n)
    (groups : List (List Bool)) (hg : ∀ gr ∈ groups, gr.length = size "time")
    (hf : ∀ gr ∈ groups, ∀ pos, f (groupBlock v gr pos) = .block (g (groupBlock v gr pos))) (fill : List Nat → Cell β) :
    ∃ out, aggregate f v groups fill = .ok out ∧
      out.shape = v.names.map (fun n => if n = "time" then groups.length else size n) ∧
      ∀ pos, OutputPosition v.names size groups.length pos →
        out.elem (v.names.map pos) = g (groupBlock v (groups.getD (pos "time") []) pos) (pos "y") (pos "x") := by
  have hex : extras v.names v.arr.shape = (v.names.filter fun n => !standard.contains n).map fun n => (n, size n) := by
    rw [extras, hshape, zip_map_names, List.filter_map]
    rfl
  have hexn : ((extras v.names v.arr.shape).map (·.1)) = v.names.filter fun n => !standard.contains n := by
    rw [hex, List.map_map]
    simp [Function.comp_def]
  have hexnd : ((extras v.names v.arr.shape).map (·.1)).Nodup := by rw [hexn]; exact List.Pairwise.filter _ hn
  have hany : ((extras v.names v.arr.shape).any fun ns => ns.2 == 0) = false := by
    rw [List.any_eq_false]
    rintro ⟨n, s⟩ hm
    rw [hex] at hm
    obtain ⟨n', hm', he⟩ := List.mem_map.1 hm
    injection he with e1 e2
    subst e1 e2
    rw [List.mem_filter] at hm'
    have := hextra n' hm'.1 (by simpa using hm'.2)
    simp; omega
  have hsp := choiceWrites_spec f g v hn htime size hshape groups hg hf
  let W := fun e => (hsp e).choose
  have hW : ∀ e, choiceWrites f v groups e = .ok (W e) := fun e => (hsp e).choose_spec.1
  have hWm := fun e => (hsp e).choose_spec.2
  refine ⟨⟨fillShape v.names v.arr.shape groups.length, applyWrites fill ((extraChoices (extras v.names v.arr.shape)).map W).flatten⟩, ?_, ?_, ?_⟩
  · unfold aggregate
    rw [Ocgis.Mpi.mapM_ok _ _ W (fun e _ => hW e)]
    simp only [htime, not_true_eq_false, if_false, hany]
    rfl
  · show fillShape _ _ _ = _
    obtain ⟨_, _, _⟩ := conform_spec v.names hn size []
    rw [fillShape, hshape]
    apply List.ext_getElem
    · simp
    · intro i h1 h2
      have hi : i < v.names.length := by simpa using h2
      have hl := List.idxOf_lt_length_of_mem htime
      rw [List.getElem_set]
      simp only [List.getElem_map]
      by_cases he : v.names.idxOf "time" = i
      · subst he
        simp
      · have : v.names[i] ≠ "time" := by
          intro h
          apply he
          have h2 := List.getElem_idxOf hl
          exact (List.getElem_inj hn).1 (h2.trans h.symm)
        simp [he, this]
  · intro pos hpos
    show applyWrites fill _ (v.names.map pos) = _
    have hin : ∀ n, n ≠ "time" → pos n < (if n ∈ v.names then size n else 1) := by
      intro n hnt
      by_cases h : n ∈ v.names
      · rw [if_pos h]; exact hpos.inside n h hnt
      · rw [if_neg h, hpos.absent n h]; omega
    -- a position that agrees with `pos` where it matters gives the same value
    have hsame : ∀ (e : List (String × Nat)) (ir il it y x : Nat),
        ir < (if "realization" ∈ v.names then size "realization" else 1) → il < (if "level" ∈ v.names then size "level" else 1) →
        y < (if "y" ∈ v.names then size "y" else 1) → x < (if "x" ∈ v.names then size "x" else 1) →
        (∀ n ∈ v.names, posOf e ir it il y x n = pos n) →
        g (groupBlock v (groups.getD it []) (posOf e ir it il y x)) y x =
          g (groupBlock v (groups.getD (pos "time") []) pos) (pos "y") (pos "x") := by
      intro e ir il it y x hir hil hy hx hagree
      have ht : it = pos "time" := by simpa [posOf] using hagree "time" htime
      have hy' : y = pos "y" := by
        by_cases h : "y" ∈ v.names
        · simpa [posOf] using hagree "y" h
        · rw [if_neg h] at hy
          rw [hpos.absent _ h]; omega
      have hx' : x = pos "x" := by
        by_cases h : "x" ∈ v.names
        · simpa [posOf] using hagree "x" h
        · rw [if_neg h] at hx
          rw [hpos.absent _ h]; omega
      have hb : groupBlock v (groups.getD it []) (posOf e ir it il y x) = groupBlock v (groups.getD (pos "time") []) pos := by
        rw [ht]
        simp only [groupBlock]
        apply List.map_congr_left
        intro t _
        funext y0 x0
        congr 1
        apply List.map_congr_left
        intro n hn
        simp only [at3]
        have := hagree n hn
        rw [ht] at this
        rw [this]
      rw [hb, hy', hx']
    apply applyWrites_get
    · intro w hw hwb
      simp only [List.mem_flatten, List.mem_map] at hw
      obtain ⟨l, ⟨e, he, rfl⟩, hw⟩ := hw
      obtain ⟨ir, il, it, y, x, hir, hil, hit, hy, hx, rfl⟩ := (hWm e w).1 hw
      refine hsame e ir il it y x hir hil hy hx ?_
      intro n hn
      exact List.map_inj_left.1 hwb n hn
    · left
      let e := (v.names.filter fun n => !standard.contains n).map fun n => (n, pos n)
      have hlook : ∀ n ∈ v.names, n ∉ standard → e.lookup n = some (pos n) := by
        intro n hn hns
        apply lookup_map_pos
        rw [List.mem_filter]
        exact ⟨hn, by simpa using hns⟩
      have he : e ∈ extraChoices (extras v.names v.arr.shape) := by
        rw [extraChoices_mem _ hexnd]
        refine ⟨?_, ?_⟩
        · rw [hexn]
          simp [e, Function.comp_def]
        · intro n s hm
          rw [hex] at hm
          obtain ⟨n', hm', he⟩ := List.mem_map.1 hm
          injection he with e1 e2
          subst e1 e2
          rw [List.mem_filter] at hm'
          have hns : n' ∉ standard := by simpa using hm'.2
          refine ⟨pos n', hlook n' hm'.1 hns, ?_⟩
          exact hpos.inside n' hm'.1 (by rintro rfl; exact hns (by decide))
      refine ⟨_, List.mem_flatten.2 ⟨W e, List.mem_map.2 ⟨e, he, rfl⟩, (hWm e _).2
        ⟨pos "realization", pos "level", pos "time", pos "y", pos "x", hin _ (by decide), hin _ (by decide), hpos.time, hin _ (by decide),
          hin _ (by decide), rfl⟩⟩, ?_⟩
      apply List.map_congr_left
      intro n hn
      by_cases hns : n ∈ standard
      · simp only [standard, List.mem_cons, List.not_mem_nil, or_false] at hns
        rcases hns with rfl | rfl | rfl | rfl | rfl <;> simp [posOf]
      · rw [posOf_extra _ _ _ _ _ _ _ hns, hlook n hn hns]
        rfl

/-- C43: for a function of the values at one place, each output value is the function of exactly that group's values at the same location,
level and realization. -/
theorem C43_per_location {α β : Type _} (f : List (Nat → Nat → Cell α) → Outcome β) (φ : List (Cell α) → Cell β)
    (hf : ∀ b, f b = .block fun y x => φ (b.map fun g => g y x))
    (v : AVar α) (hn : v.names.Nodup) (htime : "time" ∈ v.names) (size : String → Nat)
    (hshape : v.arr.shape = v.names.map size) (hextra : ∀ n ∈ v.names, n ∉ standard → 0 < size n)
    (groups : List (List Bool)) (hg : ∀ gr ∈ groups, gr.length = size "time") (fill : List Nat → Cell β) :
    ∃ out, aggregate f v groups fill = .ok out ∧
      out.shape = v.names.map (fun n => if n = "time" then groups.length else size n) ∧
      ∀ pos, OutputPosition v.names size groups.length pos →
        out.elem (v.names.map pos) = φ (groupColumn v (groups.getD (pos "time") []) pos) := by
  obtain ⟨out, h1, h2, h3⟩ := C43_groups f (fun b y x => φ (b.map fun g => g y x)) v hn htime size hshape hextra groups hg
    (fun gr _ pos => hf _) fill
  refine ⟨out, h1, h2, ?_⟩
  intro pos hpos
  rw [h3 pos hpos, groupBlock_column]

/-- C43: the sample size at any position is the number of unmasked values of that group at the same location, level and realization, masked
exactly where the output is. -/
theorem C43_sample_size {α β : Type _} (v : AVar α) (hn : v.names.Nodup) (htime : "time" ∈ v.names) (size : String → Nat)
    (hshape : v.arr.shape = v.names.map size) (hextra : ∀ n ∈ v.names, n ∉ standard → 0 < size n)
    (groups : List (List Bool)) (hg : ∀ gr ∈ groups, gr.length = size "time" ∧ true ∈ gr) (fill : List Nat → Cell Nat)
    (out : Arr (Cell β)) :
    ∃ ss, sampleSize v groups fill out = .ok ss ∧
      ss.shape = v.names.map (fun n => if n = "time" then groups.length else size n) ∧
      ∀ pos, OutputPosition v.names size groups.length pos →
        ss.elem (v.names.map pos) = ((groupColumn v (groups.getD (pos "time") []) pos).countP fun c => !c.2, (out.elem (v.names.map pos)).2) := by
  obtain ⟨ss, h1, h2, h3⟩ := C43_groups (countUnmasked (α := α))
    (fun b y x => ((b.countP fun g => !(g y x).2), ((b.map fun g => (g y x).2).headD false)))
    v hn htime size hshape hextra groups (fun gr h => (hg gr h).1) (by
      intro gr hgr pos
      obtain ⟨i, hi⟩ := List.getElem?_of_mem (hg gr hgr).2
      have hlt := (List.getElem?_eq_some_iff.1 hi).1
      have hmem : i ∈ (List.range gr.length).filter fun t => gr.getD t false := by
        rw [List.mem_filter, List.mem_range]
        exact ⟨hlt, by rw [List.getD_eq_getElem?_getD, hi]; rfl⟩
      cases hb : groupBlock v gr pos with
      | nil =>
        simp only [groupBlock, List.map_eq_nil_iff] at hb
        rw [hb] at hmem
        cases hmem
      | cons b bs => rfl) fill
  refine ⟨⟨ss.shape, fun idx => ((ss.elem idx).1, (out.elem idx).2)⟩, by rw [sampleSize, h1]; rfl, h2, ?_⟩
  intro pos hpos
  show ((ss.elem (v.names.map pos)).1, (out.elem (v.names.map pos)).2) = _
  rw [h3 pos hpos, ← groupBlock_column, List.countP_map]
  rfl

/-- A variable of three time steps, an extra dimension of two and three columns, in an unusual order. -/
def aggExample : AVar Nat := ⟨["x", "band", "time"], ⟨[3, 2, 3], fun idx => (100 * idx.getD 0 0 + 10 * idx.getD 1 0 + idx.getD 2 0, idx == [1, 1, 2])⟩⟩

/-- The sum of the unmasked values. -/
def sumUnmasked (b : List (Nat → Nat → Cell Nat)) : Outcome Nat :=
  .block fun y x => (((b.map fun g => g y x).filter fun c => !c.2).map (·.1)).sum |> fun s => (s, false)

example : ∃ out, aggregate sumUnmasked aggExample [[true, false, true], [false, true, false]] (fun _ => (0, true)) = .ok out ∧
    out.shape = [3, 2, 2] ∧ out.elem [2, 1, 0] = (210 + 212, false) ∧ out.elem [1, 1, 0] = (110, false) ∧ out.elem [1, 1, 1] = (111, false) := by
  refine ⟨_, rfl, ?_, ?_, ?_, ?_⟩ <;> decide

example : ∃ ss, sampleSize aggExample [[true, false, true], [false, true, false]] (fun _ => (0, true)) (⟨[], fun _ => (0, false)⟩ : Arr (Cell Nat)) = .ok ss ∧
    ss.elem [1, 1, 0] = (1, false) ∧ ss.elem [2, 1, 0] = (2, false) := by
  refine ⟨_, rfl, ?_, ?_⟩ <;> decide

example : ∀ n ∈ aggExample.names, n ∉ standard → 0 < (fun n => if n = "band" then 2 else 3) n := by
  intro n _ _
  show 0 < if n = "band" then 2 else 3
  split <;> omega

example : OutputPosition aggExample.names (fun n => if n = "band" then 2 else 3) 2
    (fun n => if n = "x" then 1 else if n = "band" then 1 else 0) := by
  refine ⟨by decide, by decide, ?_⟩
  intro n hn
  simp [aggExample] at hn
  simp [hn]

/-- C43: a group of another length than the time axis is refused, as is a variable without a time dimension. -/
theorem C43_refused {α β : Type _} (f : List (Nat → Nat → Cell α) → Outcome β) (v : AVar α) (groups : List (List Bool))
    (fill : List Nat → Cell β) (h : "time" ∉ v.names) : aggregate f v groups fill = .error .valueError := by
  simp [aggregate, h, throw, throwThe, MonadExceptOf.throw, bind, Except.bind]

/-- C43 needs functions that return arrays of the right shape: a masked array of another shape is dropped without an error, and the output
keeps whatever the new array held. -/
theorem C43_wrong_shape_counterexample (fill : List Nat → Cell Nat) :
    ∃ out, aggregate (fun _ => .wrongShape true) aggExample [[true, false, true]] fill = .ok out ∧ out.elem = fill := by
  exact ⟨_, rfl, rfl⟩

end Ocgis.Props
