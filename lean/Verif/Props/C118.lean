import Verif.Proofs.RequestSize
/-!
# C118: The estimated size of a request
-/
namespace Ocgis.Props
open Spec Ocgis.RequestSize Proofs.RequestSize

private def tasVar : Var := ⟨"tas", some 4, [3650, 64, 128]⟩
private def latVar : Var := ⟨"lat", some 8, [64]⟩
private def heightVar : Var := ⟨"height", some 8, []⟩
private def tasField : Field := ⟨"tas", [tasVar, latVar], []⟩
private def prField : Field := ⟨"pr", [⟨"pr", some 4, [10, 64, 128]⟩], [⟨"deep", some 8, [1024]⟩]⟩

/-- The sizes of all variables of all fields are shown, in their order, and the total is their sum. Missing: fields must have different names
(`C118_geometries_never`), variables dimensions (`C118_scalar_never`), and those of groups are left out (`C118_groups_never`). -/
theorem C118_all_partial (r : Request) (hr : r.regrid = false) (hp : ∀ f ∈ r.colls.flatten, PlainFields f)
    (hn : (r.colls.flatten.map (·.name)).Nodup) :
    ∃ rep, requestSize r = .ok rep ∧ rep.fields = (r.colls.flatten.map fun f => (f.name, sizesOf f)) ∧
      rep.total = sumRat (r.colls.flatten.map fun f => sumRat ((sizesOf f).map (·.2))) := by
  have hf : r.colls.foldl (fun ret coll => (melted coll).foldl (fun ret f => setKey f.name (entries f) ret) ret) [] =
      r.colls.flatten.map fun f => (f.name, sizesOf f) := by
    rw [fields_flat r.colls (fun f hf => (hp f hf).1), foldl_setKey (fun f : Field => f.name) entries _ [] hn (by simp), List.nil_append]
    apply List.map_congr_left
    intro f hf
    rw [entries_plain f (hp f hf)]
  unfold requestSize
  rw [hr, if_neg (by simp)]
  refine ⟨_, rfl, hf, ?_⟩
  simp only
  rw [hf, sumUp_eq, List.map_map]
  rfl

example : PlainFields tasField ∧ PlainFields prField ∧ requestSize ⟨false, [[tasField], [prField]]⟩ =
    .ok ⟨[("tas", [("tas", 116800), ("lat", 1/2)]), ("pr", [("pr", 320)])], 116800 + 1/2 + 320⟩ := by
  refine ⟨⟨by decide, by decide, by decide⟩, ⟨by decide, by decide, by decide⟩, by decide +kernel⟩

/-- The total is always the sum of the sizes that are shown. -/
theorem C118_total (r : Request) (rep : Report) (h : requestSize r = .ok rep) :
    rep.total = sumRat (rep.fields.map fun f => sumRat (f.2.map (·.2))) := by
  unfold requestSize at h
  by_cases hr : r.regrid = true
  · rw [if_pos hr] at h; cases h
  · rw [if_neg hr] at h
    cases h
    exact sumUp_eq _

/-- Of all fields with one name that have variables, those of the last one are shown and the others are not. -/
theorem C118_last (r : Request) (rep : Report) (h : requestSize r = .ok rep) (before after : List Field) (f : Field)
    (hs : r.colls.flatten = before ++ f :: after) (hv : ∀ g ∈ r.colls.flatten, g.vars ≠ []) (hn : (f.vars.map (·.name)).Nodup)
    (hl : ∀ g ∈ after, g.name ≠ f.name) :
    rep.fields.find? (fun e => e.1 == f.name) = some (f.name, f.vars.map fun v => (v.name, kb v)) := by
  unfold requestSize at h
  by_cases hr : r.regrid = true
  · rw [if_pos hr] at h; cases h
  rw [if_neg hr] at h
  cases h
  simp only
  rw [fields_flat r.colls hv, foldl_last, hs]
  have : (before ++ f :: after).reverse.find? (fun g => g.name == f.name) = some f := by
    rw [List.reverse_append, List.reverse_cons, List.append_assoc, List.find?_append]
    have hnone : after.reverse.find? (fun g => g.name == f.name) = none := by
      rw [List.find?_eq_none]
      intro g hg
      simpa using hl g (List.mem_reverse.1 hg)
    rw [hnone]
    simp
  rw [this]
  simp only [entries_eq f hn]

/-- With several geometries, or one dataset twice, there is one name for all fields: only the last geometry counts, whatever the others need. -/
theorem C118_geometries_never (r : Request) (hr : r.regrid = false) (before : List Field) (f : Field) (hs : r.colls.flatten = before ++ [f])
    (hp : ∀ g ∈ before, g.name = f.name ∧ g.vars ≠ []) (hf : PlainFields f) :
    requestSize r = .ok { fields := [(f.name, sizesOf f)], total := sumRat ((sizesOf f).map (·.2)) } := by
  have hflat := fields_flat r.colls (by
    intro g hg
    rw [hs] at hg
    rcases List.mem_append.1 hg with hg | hg
    · exact (hp g hg).2
    · rw [List.mem_singleton.1 hg]; exact hf.1) []
  have hone : ∀ (l : List Field), (∀ g ∈ l, g.name = f.name) → ∀ acc : List (String × List (String × Rat)),
      (acc = [] ∨ ∃ e, acc = [(f.name, e)]) →
      (l.foldl (fun ret g => setKey g.name (entries g) ret) acc = [] ∨
        ∃ e, l.foldl (fun ret g => setKey g.name (entries g) ret) acc = [(f.name, e)]) := by
    intro l
    induction l with
    | nil => intro _ acc h; exact h
    | cons g l ih =>
      intro hl acc hacc
      rw [List.foldl_cons]
      apply ih (fun g' hg' => hl g' (List.mem_cons_of_mem _ hg'))
      right
      have hg := hl g (List.mem_cons_self ..)
      rcases hacc with rfl | ⟨e, rfl⟩
      · exact ⟨entries g, by rw [hg]; rfl⟩
      · exact ⟨entries g, by rw [hg, setKey, if_pos rfl]⟩
  have hend : r.colls.foldl (fun ret coll => (melted coll).foldl (fun ret f => setKey f.name (entries f) ret) ret) [] = [(f.name, sizesOf f)] := by
    rw [hflat, hs, List.foldl_append, List.foldl_cons, List.foldl_nil, ← entries_plain f hf]
    rcases hone before (fun g hg => (hp g hg).1) [] (Or.inl rfl) with h | ⟨e, h⟩
    · rw [h]; rfl
    · rw [h, setKey, if_pos rfl]
  unfold requestSize
  rw [hr, if_neg (by simp)]
  simp only [hend, sumUp_eq, List.map_cons, List.map_nil, sumRat, Rat.add_zero]

example : requestSize ⟨false, [[⟨"tas", [⟨"tas", some 4, [3650, 64, 128]⟩], []⟩, ⟨"tas", [⟨"tas", some 4, [256]⟩], []⟩]]⟩ =
    .ok ⟨[("tas", [("tas", 1)])], 1⟩ := by decide +kernel

/-- A variable without dimensions counts as nothing, though it has one element. -/
theorem C118_scalar_never (v : Var) (h : v.shape = []) : kb v = 0 ∧ ∀ item, bytesOf v item = item := by
  constructor
  · unfold kb size
    rw [if_pos (by rw [h]; rfl), Nat.zero_mul]
    decide +kernel
  · intro item
    rw [bytesOf, h, elementsOf, Nat.one_mul]

example : requestSize ⟨false, [[⟨"f", [heightVar], []⟩]]⟩ = .ok ⟨[("f", [("height", 0)])], 0⟩ := by decide +kernel

/-- The variables of groups are not counted: without them the sizes are the same. -/
theorem C118_groups_never (r : Request) :
    requestSize { r with colls := r.colls.map fun c => c.map fun f => { f with grouped := [] } } = requestSize r := by
  have hm : ∀ (c : List Field) (acc : List (String × List (String × Rat))),
      (melted (c.map fun f => { f with grouped := [] })).foldl (fun ret f => setKey f.name (entries f) ret) acc =
        (melted c).foldl (fun ret f => setKey f.name (entries f) ret) acc := by
    intro c
    unfold melted
    induction c with
    | nil => intro acc; rfl
    | cons f c ih =>
      intro acc
      rw [List.map_cons, List.flatMap_cons, List.flatMap_cons, List.foldl_append, List.foldl_append, ih, List.foldl_map, List.foldl_map]
      rfl
  unfold requestSize
  simp only [List.foldl_map, hm]

/-- A field without variables is not shown. -/
theorem C118_without (r : Request) :
    requestSize { r with colls := r.colls.map fun c => c.filter fun f => ! f.vars.isEmpty } = requestSize r := by
  unfold requestSize
  simp only [List.foldl_map, ← melted_filter]

/-- With a grid to regrid to there is no estimate. -/
theorem C118_regrid (r : Request) (h : r.regrid = true) : requestSize r = .error .definitionValidation := by
  unfold requestSize
  rw [if_pos h]

/-- Without it there always is one. -/
theorem C118_given (r : Request) (h : r.regrid = false) : ∃ rep, requestSize r = .ok rep := by
  unfold requestSize
  rw [h, if_neg (by simp)]
  exact ⟨_, rfl⟩

example : requestSize ⟨true, [[tasField]]⟩ = .error .definitionValidation ∧ requestSize ⟨false, []⟩ = .ok ⟨[], 0⟩ := by decide +kernel

end Ocgis.Props
