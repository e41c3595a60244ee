import Verif.Proofs.GroupStack
/-!
# C116: Groups stacked along a dimension
-/
namespace Ocgis.Props
open Spec Ocgis.GroupStack Proofs.GroupStack

/-! Groups for the examples: a run with values at three times and one place along `run`. -/
private def ttime : Dim := { name := "time", size := 3 }
private def trun : Dim := { name := "run", size := 1 }
private def runVar (k : Nat) : Var :=
  { name := "q", dims := [ttime, trun], ty := .real, val := fun ix => 10 * k + ix.headD 0
    mask := fun ix => ix.headD 0 == 1, attrs := [("units", "m")] }
private def timeVar : Var := { name := "time", dims := [ttime], ty := .int, val := fun ix => ix.headD 0 }
private def run (k : Nat) : Coll := { vars := [runVar k, timeVar], dims := [ttime, trun] }
private def runs : List (String × Coll) := [("a", run 1), ("b", run 2), ("c", run 3)]

/-- Exactly one variable of the first group has the dimension, and it has length one along it in every group: the result has that variable
stacked, the other variables of the first group and the names of the groups. Missing: several variables (`C116_two_never`), masks and attributes
(`C116_lost_never`), bounds, and unlimited dimensions (`C116_unlimited_never`). -/
theorem C116_stacked_partial (first : String × Coll) (rest : List (String × Coll)) (name dim : String) (v : Var)
    (hwf : WellFormed first.2) (hone : (first.2.vars.filter fun v => v.has dim) = [v]) (hb : v.bounds = none)
    (hsrc : ∀ c ∈ first :: rest, ∃ src, c.2.get? v.name = some src ∧ OnePlaceAlong dim v src)
    (hun : ∀ d ∈ v.dims, d.name ≠ dim → d.unlimited = false) (hname : ∀ w ∈ first.2.vars, w.name ≠ name) :
    ∃ r w, groupsToVariable (first :: rest) name dim = .ok r ∧
      r.coll.vars = (first.2.vars.filter fun w => w.name != v.name) ++ [w] ∧ Stacked ((first :: rest).map (·.2)) dim v w ∧
      r.labels = { name := name, dim := { name := dim, size := (first :: rest).length }, labels := (first :: rest).map (·.1) } ∧
      ∀ w ∈ r.coll.vars, ∀ d ∈ w.dims, d ∈ r.coll.dims := by
  obtain ⟨hvn, hdn, hvd, hin⟩ := hwf
  have hv : v ∈ first.2.vars ∧ v.has dim = true := by
    have : v ∈ first.2.vars.filter fun v => v.has dim := by rw [hone]; exact List.mem_singleton.2 rfl
    exact List.mem_filter.1 this
  have honly : ∀ w ∈ first.2.vars, w.has dim = true → w = v := by
    intro w hw hh
    have : w ∈ first.2.vars.filter fun v => v.has dim := List.mem_filter.2 ⟨hw, hh⟩
    rw [hone] at this
    exact List.mem_singleton.1 this
  obtain ⟨ret, e1, e2, e3⟩ := remove_plain first.2 hvn v hv.1 hb
  have hsrc' : ∀ c ∈ (first :: rest).map (·.2), ∃ src, c.get? v.name = some src ∧ fits src.shape (slabShape v.dims dim) = true := by
    intro c hc
    obtain ⟨p, hp, rfl⟩ := List.mem_map.1 hc
    obtain ⟨src, h1, h2⟩ := hsrc p hp
    exact ⟨src, h1, by rw [shape_eq h2]; exact fits_self _⟩
  obtain ⟨val, f1, f2, -⟩ := fillAll_ok v dim ((first :: rest).map (·.2)) 0 (fun _ => 0) hsrc'
  obtain ⟨dims, a1, a2, a3, a4⟩ := addDims_ok (stackDims v.dims dim (first :: rest).length) ret.dims (by
    intro d hd e he hn
    obtain ⟨d0, hd0, rfl⟩ := List.mem_map.1 hd
    simp only at hn
    obtain ⟨he1, he2⟩ := (e3 e).1 he
    have hd0c := hin v hv.1 d0 hd0
    have hed : e = d0 := by
      have g1 := find_of_mem _ hdn e he1
      have g2 := find_of_mem _ hdn d0 hd0c
      rw [hn, g2] at g1
      cases g1
      rfl
    subst hed
    by_cases hdim : e.name = dim
    · exfalso
      rcases he2 with he2 | ⟨w, hw, hwn, hwh⟩
      · exact he2 e hd0 rfl
      · rw [hdim] at hwh
        exact hwn (by rw [honly w hw hwh])
    · have hu := hun e hd0 hdim
      cases e with
      | mk n s u =>
        simp only at hu hdim
        simp [hu, hdim]) (by
    have := hvd v hv.1
    simpa [stackDims, List.map_map, Function.comp_def] using this)
  let w : Var := { blank v dim (first :: rest).length with val := val }
  have hget : ret.get? w.name = none := by
    apply get_none
    intro u hu
    rw [e2] at hu
    simpa [w, blank] using (List.mem_filter.1 hu).2
  have hstack : stackAll ((first :: rest).map (·.2)) dim (first :: rest).length first.2 [v] = .ok { vars := ret.vars ++ [w], dims := dims } := by
    simp only [stackAll, stackOne, e1, f1]
    have : addVar ret w = .ok { vars := ret.vars ++ [w], dims := dims } := by
      unfold addVar
      have hwd : w.dims = stackDims v.dims dim (first :: rest).length := rfl
      rw [hwd, a1]
      simp [hget]
    rw [show ({ blank v dim (first :: rest).length with val := val } : Var) = w from rfl, this]
  obtain ⟨dims', b1, -, b3, -⟩ := addDim_ok dims { name := dim, size := (first :: rest).length } (by
    intro e he hn
    simp only at hn
    rcases a2 e he with he | he
    · exfalso
      obtain ⟨he1, he2⟩ := (e3 e).1 he
      rcases he2 with he2 | ⟨u, hu, hun', huh⟩
      · obtain ⟨d, hd, hdn'⟩ := (has_iff v dim).1 hv.2
        exact he2 d hd (hdn'.trans hn.symm)
      · rw [hn] at huh
        exact hun' (by rw [honly u hu huh])
    · obtain ⟨d0, hd0, rfl⟩ := List.mem_map.1 he
      simp only at hn
      simp [hn])
  have hno : ({ vars := ret.vars ++ [w], dims := dims } : Coll).get? name = none := by
    apply get_none
    intro u hu
    rcases List.mem_append.1 hu with hu | hu
    · rw [e2] at hu
      exact hname u (List.mem_filter.1 hu).1
    · rw [List.mem_singleton.1 hu]
      exact hname v hv.1
  refine ⟨{ coll := { vars := ret.vars ++ [w], dims := dims' }
            labels := { name := name, dim := { name := dim, size := (first :: rest).length }, labels := (first :: rest).map (·.1) } }, w, ?_, ?_, ?_, rfl, ?_⟩
  · simp only [groupsToVariable, hone, hstack, b1, hno, Option.isSome_none, Bool.false_eq_true, if_false]
  · simp only [e2]
  · refine ⟨rfl, rfl, by simp [w, blank, stackDims], ?_, ?_⟩
    · intro i d e hd he
      simp only [w, blank, stackDims, List.getElem?_map, hd, Option.map_some, Option.some.injEq] at he
      rw [← he]
      simp
    · intro ix a g d c src hd hdim hl hlt hg hc hs
      have hax : axisOf v.dims dim = a := by rw [← hdim]; exact axis_eq _ (hvd v hv.1) a d hd
      have := f2 ix g c src (by rw [hax, Nat.zero_add]; exact hg) hc hs
      simp only [w]
      rw [this, hax]
      obtain ⟨p, hp, hpc⟩ := List.mem_map.1 (List.mem_of_getElem? hc)
      obtain ⟨src', h1, h2⟩ := hsrc p hp
      rw [hpc, hs] at h1
      cases h1
      rw [pick_self]
      · rw [List.length_set, hl, ← h2.1]
        simp [Var.shape]
      · intro i s k hsi hki
        simp only [Var.shape, List.getElem?_map, Option.map_eq_some_iff] at hsi
        obtain ⟨e, he, rfl⟩ := hsi
        have hi : i < v.dims.length := by
          have := (List.getElem?_eq_some_iff.1 he).1
          rw [← h2.1]; exact this
        have hsz := h2.2 i _ e (List.getElem?_eq_getElem hi) he
        by_cases hia : a = i
        · subst hia
          rw [List.getElem?_set_self (by omega)] at hki
          cases hki
          rw [List.getElem?_eq_getElem hi] at hd
          cases hd
          rw [hsz, if_pos hdim]
          omega
        · rw [List.getElem?_set_ne hia] at hki
          have hwi : w.dims[i]? = some { name := (v.dims[i]).name, size := if (v.dims[i]).name = dim then (first :: rest).length else (v.dims[i]).size } := by
            simp [w, blank, stackDims, hi]
          have hlt' := hlt i _ k hwi hki
          simp only at hlt'
          have hne : (v.dims[i]).name ≠ dim := by
            intro hn
            have h3 := axis_eq _ (hvd v hv.1) i _ (List.getElem?_eq_getElem hi)
            rw [hn, hax] at h3
            exact hia h3
          rw [if_neg hne] at hlt'
          rw [hsz, if_neg hne]
          exact hlt'
  · intro u hu d hd
    rcases List.mem_append.1 hu with hu | hu
    · apply b3; apply a3
      rw [e2] at hu
      obtain ⟨hu1, hu2⟩ := List.mem_filter.1 hu
      exact (e3 d).2 ⟨hin u hu1 d hd, .inr ⟨u, hu1, by simpa using hu2, (has_iff u d.name).2 ⟨d, hd, rfl⟩⟩⟩
    · rw [List.mem_singleton.1 hu] at hd
      exact b3 d (a4 d hd)

example : WellFormed (run 1) ∧ (run 1).vars.filter (fun v => v.has "run") = [runVar 1] ∧ (runVar 1).bounds = none ∧
    (∀ c ∈ runs, ∃ src, c.2.get? "q" = some src ∧ OnePlaceAlong "run" (runVar 1) src) ∧
    (∀ d ∈ (runVar 1).dims, d.name ≠ "run" → d.unlimited = false) ∧ ∀ w ∈ (run 1).vars, w.name ≠ "member" := by
  refine ⟨⟨by decide +kernel, by decide +kernel, ?_, ?_⟩, rfl, rfl, ?_, by decide +kernel, ?_⟩
  · intro v hv
    simp only [run, List.mem_cons, List.not_mem_nil, or_false] at hv
    rcases hv with rfl | rfl <;> decide +kernel
  · intro v hv
    simp only [run, List.mem_cons, List.not_mem_nil, or_false] at hv
    rcases hv with rfl | rfl <;> decide +kernel
  · intro c hc
    simp only [runs, List.mem_cons, List.not_mem_nil, or_false] at hc
    have : ∀ k, OnePlaceAlong "run" (runVar 1) (runVar k) := by
      intro k
      refine ⟨rfl, ?_⟩
      intro i d e hd he
      rcases i with _ | _ | i
      · cases hd; cases he; decide +kernel
      · cases hd; cases he; decide +kernel
      · cases hd
    rcases hc with rfl | rfl | rfl
    · exact ⟨runVar 1, rfl, this 1⟩
    · exact ⟨runVar 2, rfl, this 2⟩
    · exact ⟨runVar 3, rfl, this 3⟩
  · intro w hw
    simp only [run, List.mem_cons, List.not_mem_nil, or_false] at hw
    rcases hw with rfl | rfl <;> decide +kernel

example : (groupsToVariable runs "member" "run").toOption.map (fun r => (r.coll.vars.map (·.name), r.labels.labels,
      (r.coll.get? "q").map fun w => (w.val [2, 0], w.val [2, 1], w.val [0, 2]))) =
    some (["time", "q"], ["a", "b", "c"], some (12, 22, 30)) := by decide +kernel

/-- Masks and attributes of the stacked variable are lost: nothing is masked and there are no attributes and bounds, whatever the groups have. -/
theorem C116_lost_never (first : String × Coll) (rest : List (String × Coll)) (name dim : String) (v : Var)
    (hone : (first.2.vars.filter fun v => v.has dim) = [v]) (r : Result) (h : groupsToVariable (first :: rest) name dim = .ok r) :
    ∃ w ∈ r.coll.vars, w.name = v.name ∧ (∀ ix, w.mask ix = false) ∧ w.attrs = [] ∧ w.bounds = none := by
  obtain ⟨f, rs, c, he, hs, hc⟩ := groups_ok h
  cases he
  rw [hone] at hs
  simp only [stackAll] at hs
  cases h1 : stackOne ((first :: rest).map (·.2)) dim (first :: rest).length first.2 v with
  | error e => rw [h1] at hs; cases hs
  | ok c' =>
    rw [h1] at hs
    cases hs
    obtain ⟨ret, val, -, -, e3⟩ := stackOne_parts h1
    rw [hc, addVar_vars e3]
    exact ⟨_, List.mem_append_right _ (List.mem_singleton.2 rfl), rfl, fun _ => rfl, rfl, rfl⟩

example : (runVar 1).mask [1, 0] = true ∧ (runVar 1).attrs = [("units", "m")] ∧
    (groupsToVariable runs "member" "run").toOption.isSome = true := by decide +kernel

/-- Several variables of the first group with the dimension are never stacked: with two groups or more it ends with an exception. -/
theorem C116_two_never (first : String × Coll) (rest : List (String × Coll)) (name dim : String) (v u : Var) (vs : List Var)
    (hwf : WellFormed first.2) (htwo : (first.2.vars.filter fun v => v.has dim) = v :: u :: vs) (hrest : rest ≠ []) (r : Result) :
    groupsToVariable (first :: rest) name dim ≠ .ok r := by
  intro h
  obtain ⟨hvn, hdn, hvd, hin⟩ := hwf
  obtain ⟨f, rs, c, he, hs, -⟩ := groups_ok h
  cases he
  rw [htwo] at hs
  have hv : v ∈ first.2.vars ∧ v.has dim = true := by
    have : v ∈ first.2.vars.filter fun v => v.has dim := by rw [htwo]; exact List.mem_cons_self ..
    exact List.mem_filter.1 this
  have hu : u ∈ first.2.vars ∧ u.has dim = true := by
    have : u ∈ first.2.vars.filter fun v => v.has dim := by rw [htwo]; exact List.mem_cons_of_mem _ (List.mem_cons_self ..)
    exact List.mem_filter.1 this
  have huv : u.name ≠ v.name := by
    have hsub : ((first.2.vars.filter fun v => v.has dim).map (·.name)).Nodup :=
      List.Nodup.sublist (List.Sublist.map _ List.filter_sublist) hvn
    rw [htwo] at hsub
    simp only [List.map_cons, List.nodup_cons, List.mem_cons, not_or] at hsub
    exact fun hn => hsub.1.1 hn.symm
  have hlen : 2 ≤ (first :: rest).length := by
    cases rest with
    | nil => exact absurd rfl hrest
    | cons a l => simp
  simp only [stackAll] at hs
  cases h1 : stackOne ((first :: rest).map (·.2)) dim (first :: rest).length first.2 v with
  | error e => rw [h1] at hs; cases hs
  | ok c1 =>
    rw [h1] at hs
    simp only at hs
    obtain ⟨ret, val, e1, e2, e3⟩ := stackOne_parts h1
    by_cases hmem : u ∈ ret.vars
    · obtain ⟨d, hd, hdn'⟩ := (has_iff u dim).1 hu.2
      obtain ⟨hnd, hkeep⟩ := remove_dims e1 hdn
      have hdret : d ∈ ret.dims := hkeep u hmem d (hin u hu.1 d hd) ((has_iff u d.name).2 ⟨d, hd, rfl⟩)
      obtain ⟨dv, hdv, hdvn⟩ := (has_iff v dim).1 hv.2
      have hsame : dv = d := by
        have g1 := find_of_mem _ hdn d (hin u hu.1 d hd)
        have g2 := find_of_mem _ hdn dv (hin v hv.1 dv hdv)
        rw [hdvn, ← hdn', g1] at g2
        cases g2
        rfl
      subst hsame
      obtain ⟨src, hg, hf⟩ := fillAll_some v dim _ 0 _ val e2 first.2 (by simp)
      rw [get_of_mem _ hvn v hv.1] at hg
      cases hg
      obtain ⟨i, hi⟩ := List.getElem?_of_mem hdv
      have hsize : dv.size = 1 := by
        have := fits_at v.shape (slabShape v.dims dim) (by simp [Var.shape, slabShape]) i dv.size 1 hf (by simp [Var.shape, hi])
          (by simp [slabShape, hi, hdvn])
        omega
      unfold addVar at e3
      cases ha : addDims ret.dims (blank v dim (first :: rest).length).dims with
      | error e =>
        rw [show ({ blank v dim (first :: rest).length with val := val } : Var).dims = (blank v dim (first :: rest).length).dims from rfl, ha] at e3
        cases e3
      | ok out =>
        have := addDims_eq _ _ _ ha { name := dim, size := (first :: rest).length } (by
          simp only [blank, stackDims, List.mem_map]
          exact ⟨dv, hdv, by simp [hdvn]⟩) dv (by
          have := find_of_mem _ hnd dv hdret
          rw [hdvn] at this
          exact this)
        rw [this] at hsize
        simp only at hsize
        omega
    · have hnone : c1.get? u.name = none := by
        apply get_none
        intro w hw
        rw [addVar_vars e3] at hw
        rcases List.mem_append.1 hw with hw | hw
        · intro hn
          have hw' := (remove_names e1 w hw).1
          have g1 := get_of_mem _ hvn w hw'
          have g2 := get_of_mem _ hvn u hu.1
          rw [hn, g2] at g1
          cases g1
          exact hmem hw
        · rw [List.mem_singleton.1 hw]
          exact fun hn => huv hn.symm
      simp only [stackOne, remove, hnone] at hs
      cases hs

private def twoVars (k : Nat) : Coll := { vars := [runVar k, { runVar k with name := "p" }, timeVar], dims := [ttime, trun] }

example : ((twoVars 1).vars.filter fun v => v.has "run").map (·.name) = ["q", "p"] ∧
    (match groupsToVariable [("a", twoVars 1), ("b", twoVars 2)] "member" "run" with
      | .error e => some e
      | .ok _ => none) = some .dimensionMismatch := by decide +kernel

/-- A group without the variable ends it with an exception. -/
theorem C116_missing (groups : List (String × Coll)) (name dim : String) (first : String × Coll) (v : Var) (g : String × Coll)
    (hf : groups.head? = some first) (hv : v ∈ first.2.vars) (hd : v.has dim = true) (hg : g ∈ groups) (hm : g.2.get? v.name = none)
    (r : Result) : groupsToVariable groups name dim ≠ .ok r := by
  intro h
  obtain ⟨f, rs, c, he, hs, -⟩ := groups_ok h
  subst he
  simp only [List.head?_cons, Option.some.injEq] at hf
  subst hf
  obtain ⟨val, hfill⟩ := stackAll_fill _ _ _ _ _ _ hs v (List.mem_filter.2 ⟨hv, hd⟩)
  obtain ⟨src, h1, -⟩ := fillAll_some v dim _ 0 _ val hfill g.2 (List.mem_map.2 ⟨g, hg, rfl⟩)
  rw [hm] at h1
  cases h1

example : (run 1).get? "p" = none := rfl

/-- A group whose variable has a length other than one along the dimension ends it with an exception: groups with several places each are not
joined. -/
theorem C116_length_never (groups : List (String × Coll)) (name dim : String) (first : String × Coll) (v src : Var) (g : String × Coll)
    (a : Nat) (d e : Dim) (hf : groups.head? = some first) (hv : v ∈ first.2.vars) (hd : v.dims[a]? = some d) (hdim : d.name = dim) (hg : g ∈ groups)
    (hs : g.2.get? v.name = some src) (hl : src.dims.length = v.dims.length) (he : src.dims[a]? = some e) (hne : e.size ≠ 1)
    (r : Result) : groupsToVariable groups name dim ≠ .ok r := by
  intro h
  obtain ⟨f, rs, c, heq, hst, -⟩ := groups_ok h
  subst heq
  simp only [List.head?_cons, Option.some.injEq] at hf
  subst hf
  have hh : v.has dim = true := (has_iff v dim).2 ⟨d, List.mem_of_getElem? hd, hdim⟩
  obtain ⟨val, hfill⟩ := stackAll_fill _ _ _ _ _ _ hst v (List.mem_filter.2 ⟨hv, hh⟩)
  obtain ⟨src', h1, h2⟩ := fillAll_some v dim _ 0 _ val hfill g.2 (List.mem_map.2 ⟨g, hg, rfl⟩)
  rw [hs] at h1
  cases h1
  have := fits_at src.shape (slabShape v.dims dim) (by simp [Var.shape, slabShape, hl]) a e.size 1 h2 (by simp [Var.shape, he])
    (by simp [slabShape, hd, hdim])
  omega

private def longRun : Coll :=
  { vars := [{ runVar 1 with dims := [ttime, { trun with size := 2 }] }, timeVar], dims := [ttime, { trun with size := 2 }] }

example : (match groupsToVariable [("a", run 1), ("b", longRun)] "member" "run" with
      | .error e => some e
      | .ok _ => none) = some .valueError := by decide +kernel

/-- Only variables of the first group are in the result: one that only a later group has is left out without a word. -/
theorem C116_first_never (first : String × Coll) (rest : List (String × Coll)) (name dim : String) (r : Result)
    (h : groupsToVariable (first :: rest) name dim = .ok r) : ∀ w ∈ r.coll.vars, ∃ u ∈ first.2.vars, u.name = w.name := by
  obtain ⟨f, rs, c, he, hs, hc⟩ := groups_ok h
  cases he
  rw [hc]
  intro w hw
  rcases stackAll_names _ _ _ _ _ _ hs w hw with h | ⟨u, hu, hn⟩
  · exact h
  · exact ⟨u, (List.mem_filter.1 hu).1, hn⟩

example : (match groupsToVariable [("a", run 1), ("b", twoVars 2)] "member" "run" with
      | .error _ => none
      | .ok r => some (r.coll.vars.map (·.name))) = some ["time", "q"] := by decide +kernel

/-- A dimension that is unlimited and that another variable has as well ends it with an exception: times of a file that may grow are not stacked. -/
theorem C116_unlimited_never (first : String × Coll) (rest : List (String × Coll)) (name dim : String) (v u : Var) (d : Dim)
    (hwf : WellFormed first.2) (hone : (first.2.vars.filter fun v => v.has dim) = [v]) (hb : v.bounds = none) (hu : u ∈ first.2.vars)
    (huv : u.name ≠ v.name) (hd : d ∈ v.dims) (hdu : d ∈ u.dims) (hun : d.unlimited = true) (r : Result) :
    groupsToVariable (first :: rest) name dim ≠ .ok r := by
  intro h
  obtain ⟨hvn, hdn, hvd, hin⟩ := hwf
  obtain ⟨f, rs, c, he, hs, -⟩ := groups_ok h
  cases he
  rw [hone] at hs
  have hv : v ∈ first.2.vars := by
    have : v ∈ first.2.vars.filter fun v => v.has dim := by rw [hone]; exact List.mem_singleton.2 rfl
    exact (List.mem_filter.1 this).1
  simp only [stackAll] at hs
  cases h1 : stackOne ((first :: rest).map (·.2)) dim (first :: rest).length first.2 v with
  | error e => rw [h1] at hs; cases hs
  | ok c1 =>
    obtain ⟨ret, val, e1, e2, e3⟩ := stackOne_parts h1
    obtain ⟨ret', k1, k2, k3⟩ := remove_plain first.2 hvn v hv hb
    rw [e1] at k1
    cases k1
    have hret : d ∈ ret.dims := (k3 d).2 ⟨hin v hv d hd, .inr ⟨u, hu, huv, (has_iff u d.name).2 ⟨d, hdu, rfl⟩⟩⟩
    obtain ⟨hnd, -⟩ := remove_dims e1 hdn
    unfold addVar at e3
    cases ha : addDims ret.dims (blank v dim (first :: rest).length).dims with
    | error e =>
      rw [show ({ blank v dim (first :: rest).length with val := val } : Var).dims = (blank v dim (first :: rest).length).dims from rfl, ha] at e3
      cases e3
    | ok out =>
      have := addDims_eq _ _ _ ha { name := d.name, size := if d.name = dim then (first :: rest).length else d.size } (by
        simp only [blank, stackDims, List.mem_map]
        exact ⟨d, hd, rfl⟩) d (find_of_mem _ hnd d hret)
      rw [this] at hun
      cases hun

private def openTime : Dim := { ttime with unlimited := true }
private def openRun (k : Nat) : Coll :=
  { vars := [{ runVar k with dims := [openTime, trun] }, { timeVar with dims := [openTime] }], dims := [openTime, trun] }

example : (match groupsToVariable [("a", openRun 1), ("b", openRun 2)] "member" "run" with
      | .error e => some e
      | .ok _ => none) = some .dimensionMismatch := by decide +kernel

/-- Values of later groups are converted to the type of the first group: two and a half is stacked as two. -/
theorem C116_type_counterexample :
    ∃ groups r w, groupsToVariable groups "member" "run" = .ok r ∧ r.coll.get? "q" = some w ∧
      (∃ c src, groups[1]? = some c ∧ c.2.get? "q" = some src ∧ src.val [0] = 5/2) ∧ w.val [1] = 2 := by
  refine ⟨[("a", { vars := [{ name := "q", dims := [trun], ty := .int, val := fun _ => 1 }], dims := [trun] }),
    ("b", { vars := [{ name := "q", dims := [trun], ty := .real, val := fun _ => 5/2 }], dims := [trun] })], _, _, rfl, rfl, ⟨_, _, rfl, rfl, rfl⟩, ?_⟩
  decide +kernel

/-- A later group with one value where the first group has three is taken for a group with three equal values. -/
theorem C116_repeated_counterexample :
    ∃ groups r w, groupsToVariable groups "member" "run" = .ok r ∧ r.coll.get? "q" = some w ∧
      (∃ c src, groups[1]? = some c ∧ c.2.get? "q" = some src ∧ src.shape = [1, 1]) ∧ w.shape = [3, 2] ∧
      w.val [0, 1] = 20 ∧ w.val [1, 1] = 20 ∧ w.val [2, 1] = 20 := by
  refine ⟨[("a", run 1), ("b", { vars := [{ runVar 2 with dims := [{ ttime with size := 1 }, trun] }], dims := [{ ttime with size := 1 }, trun] })],
    _, _, rfl, rfl, ⟨_, _, rfl, rfl, rfl⟩, rfl, ?_⟩
  decide +kernel

/-- Without groups it ends with an exception. -/
theorem C116_empty (name dim : String) : groupsToVariable [] name dim = .error .attributeError := rfl

/-- A new variable with the name of a variable of the first group ends it with an exception. -/
theorem C116_name (first : String × Coll) (rest : List (String × Coll)) (name dim : String) (v w : Var)
    (hwf : WellFormed first.2) (hone : (first.2.vars.filter fun v => v.has dim) = [v]) (hb : v.bounds = none) (hw : w ∈ first.2.vars)
    (hn : w.name = name) (r : Result) : groupsToVariable (first :: rest) name dim ≠ .ok r := by
  intro h
  have hv : v ∈ first.2.vars := by
    have : v ∈ first.2.vars.filter fun v => v.has dim := by rw [hone]; exact List.mem_singleton.2 rfl
    exact (List.mem_filter.1 this).1
  simp only [groupsToVariable, hone, stackAll] at h
  cases h1 : stackOne ((first :: rest).map (·.2)) dim (first :: rest).length first.2 v with
  | error e => rw [h1] at h; cases h
  | ok c =>
    rw [h1] at h
    simp only at h
    obtain ⟨ret, val, e1, e2, e3⟩ := stackOne_parts h1
    obtain ⟨ret', k1, k2, -⟩ := remove_plain first.2 hwf.1 v hv hb
    rw [e1] at k1
    cases k1
    have hsome : (c.get? name).isSome = true := by
      unfold Coll.get?
      rw [List.find?_isSome, addVar_vars e3]
      by_cases hwv : w.name = v.name
      · exact ⟨_, List.mem_append_right _ (List.mem_singleton.2 rfl), by simp [blank, ← hn, hwv]⟩
      · exact ⟨w, List.mem_append_left _ (by rw [k2]; exact List.mem_filter.2 ⟨hw, by simpa using hwv⟩), by simp [hn]⟩
    cases h2 : addDim c.dims { name := dim, size := (first :: rest).length } with
    | error e => rw [h2] at h; cases h
    | ok dims =>
      rw [h2] at h
      simp only at h
      rw [if_pos hsome] at h
      cases h

example : (match groupsToVariable runs "time" "run" with
      | .error e => some e
      | .ok _ => none) = some .variableInCollection := by decide +kernel

end Ocgis.Props
