import Verif.Spec.GroupStack
/-!
# Lemmas on stacking groups
-/
namespace Ocgis.Proofs.GroupStack
open Spec Ocgis.GroupStack

theorem fitsRev_self : ∀ s : List Nat, fitsRev s s = true
  | [] => rfl
  | s :: ss => by simp [fitsRev, fitsRev_self ss]

theorem fits_self (s : List Nat) : fits s s = true := fitsRev_self _

theorem fitsRev_at : ∀ (ss ds : List Nat) (i s d : Nat), fitsRev ss ds = true → ss[i]? = some s → ds[i]? = some d → s = d ∨ s = 1
  | [], _, i, s, d, _, h, _ => by simp at h
  | a :: ss, [], i, s, d, _, _, h => by simp at h
  | a :: ss, b :: ds, i, s, d, hf, hs, hd => by
    simp only [fitsRev, Bool.and_eq_true, Bool.or_eq_true, beq_iff_eq] at hf
    cases i with
    | zero =>
      simp only [List.getElem?_cons_zero, Option.some.injEq] at hs hd
      subst hs; subst hd
      exact hf.1
    | succ i =>
      simp only [List.getElem?_cons_succ] at hs hd
      exact fitsRev_at ss ds i s d hf.2 hs hd

theorem fits_at (src dst : List Nat) (hl : src.length = dst.length) (i s d : Nat) (hf : fits src dst = true) (hs : src[i]? = some s)
    (hd : dst[i]? = some d) : s = d ∨ s = 1 := by
  have hi : i < src.length := (List.getElem?_eq_some_iff.1 hs).1
  refine fitsRev_at src.reverse dst.reverse (src.length - 1 - i) s d hf ?_ ?_
  · rw [List.getElem?_reverse (by omega), show src.length - 1 - (src.length - 1 - i) = i by omega]; exact hs
  · rw [List.getElem?_reverse (by omega), show dst.length - 1 - (src.length - 1 - i) = i by omega]; exact hd

theorem pickRev_self : ∀ (ss is : List Nat), is.length = ss.length → (∀ (i s k : Nat), ss[i]? = some s → is[i]? = some k → k < s) →
    pickRev ss is = is
  | [], [], _, _ => rfl
  | [], _ :: _, h, _ => by simp at h
  | _ :: _, [], h, _ => by simp at h
  | s :: ss, i :: is, h, hk => by
    simp only [List.length_cons, Nat.add_right_cancel_iff] at h
    have h0 := hk 0 s i rfl rfl
    simp only [pickRev]
    rw [pickRev_self ss is h fun j s' k hs hk' => hk (j + 1) s' k (by simpa using hs) (by simpa using hk')]
    by_cases h1 : s = 1
    · rw [if_pos h1]
      have : i = 0 := by omega
      rw [this]
    · rw [if_neg h1]

theorem pick_self (ss is : List Nat) (hl : is.length = ss.length) (hk : ∀ (i s k : Nat), ss[i]? = some s → is[i]? = some k → k < s) :
    pick ss is = is := by
  unfold pick
  rw [pickRev_self ss.reverse is.reverse (by simpa using hl), List.reverse_reverse]
  intro i s k hs hk'
  have hi : i < ss.length := by simpa using (List.getElem?_eq_some_iff.1 hs).1
  rw [List.getElem?_reverse hi] at hs
  rw [List.getElem?_reverse (by omega)] at hk'
  exact hk (ss.length - 1 - i) s k hs (by rw [← hl]; exact hk')

/-! ## Filling -/

theorem fillAll_some (v : Var) (dim : String) : ∀ (cs : List Coll) (ii : Nat) (val out : List Nat → Rat), fillAll v dim ii cs val = .ok out →
    ∀ c ∈ cs, ∃ src, c.get? v.name = some src ∧ fits src.shape (slabShape v.dims dim) = true
  | [], _, _, _, _, c, hc => by simp at hc
  | c :: cs, ii, val, out, h, c', hc' => by
    simp only [fillAll] at h
    cases hg : c.get? v.name with
    | none => rw [hg] at h; cases h
    | some src =>
      rw [hg] at h
      simp only [fill] at h
      by_cases hf : fits src.shape (slabShape v.dims dim) = true
      · rw [if_pos hf] at h
        rcases List.mem_cons.1 hc' with rfl | hc'
        · exact ⟨src, hg, hf⟩
        · exact fillAll_some v dim cs (ii + 1) _ out h c' hc'
      · rw [if_neg hf] at h; cases h

theorem fillAll_ok (v : Var) (dim : String) : ∀ (cs : List Coll) (ii : Nat) (val : List Nat → Rat),
    (∀ c ∈ cs, ∃ src, c.get? v.name = some src ∧ fits src.shape (slabShape v.dims dim) = true) →
    ∃ out, fillAll v dim ii cs val = .ok out ∧
      (∀ (ix : List Nat) (g : Nat) (c : Coll) (src : Var), ix[axisOf v.dims dim]? = some (ii + g) → cs[g]? = some c → c.get? v.name = some src →
        out ix = cast v.ty (src.val (pick src.shape (ix.set (axisOf v.dims dim) 0)))) ∧
      ∀ (ix : List Nat) (k : Nat), ix[axisOf v.dims dim]? = some k → k < ii → out ix = val ix
  | [], ii, val, _ => ⟨val, rfl, by intro ix g c src _ h; simp at h, fun _ _ _ _ => rfl⟩
  | c :: cs, ii, val, h => by
    obtain ⟨src, hg, hf⟩ := h c (List.mem_cons_self ..)
    obtain ⟨out, h1, h2, h3⟩ := fillAll_ok v dim cs (ii + 1)
      (fun ix => if ix[axisOf v.dims dim]? = some ii then cast v.ty (src.val (pick src.shape (ix.set (axisOf v.dims dim) 0))) else val ix)
      fun c hc => h c (List.mem_cons_of_mem _ hc)
    refine ⟨out, by simp only [fillAll, hg, fill, hf, if_true, h1], ?_, ?_⟩
    · intro ix g c' src' hix hc' hs'
      cases g with
      | zero =>
        simp only [List.getElem?_cons_zero, Option.some.injEq] at hc'
        subst hc'
        rw [hg] at hs'
        cases hs'
        have hix' : ix[axisOf v.dims dim]? = some ii := hix
        rw [h3 ix ii hix' (by omega), if_pos hix']
      | succ g =>
        simp only [List.getElem?_cons_succ] at hc'
        exact h2 ix g c' src' (by rw [hix]; congr 1; omega) hc' hs'
    · intro ix k hk hlt
      rw [h3 ix k hk (by omega), if_neg]
      rw [hk]
      intro h
      cases h
      omega

/-! ## Dimensions -/

theorem addDim_ok (dims : List Dim) (d : Dim) (h : ∀ e ∈ dims, e.name = d.name → e = d) :
    ∃ out, addDim dims d = .ok out ∧ (∀ e ∈ out, e ∈ dims ∨ e = d) ∧ (∀ e ∈ dims, e ∈ out) ∧ d ∈ out := by
  unfold addDim
  cases hf : dims.find? fun e => e.name == d.name with
  | none => exact ⟨_, rfl, by simp, by simp +contextual, by simp⟩
  | some e =>
    have he := List.mem_of_find?_eq_some hf
    have hn := List.find?_some hf
    simp only [beq_iff_eq] at hn
    have := h e he hn
    subst this
    simp only [if_true]
    exact ⟨_, rfl, fun e h => .inl h, fun e h => h, he⟩

theorem addDims_ok : ∀ (ds dims : List Dim), (∀ d ∈ ds, ∀ e ∈ dims, e.name = d.name → e = d) → (ds.map (·.name)).Nodup →
    ∃ out, addDims dims ds = .ok out ∧ (∀ e ∈ out, e ∈ dims ∨ e ∈ ds) ∧ (∀ e ∈ dims, e ∈ out) ∧ ∀ e ∈ ds, e ∈ out
  | [], dims, _, _ => ⟨dims, rfl, fun e h => .inl h, fun e h => h, by simp⟩
  | d :: ds, dims, h, hnd => by
    obtain ⟨o1, h1, h2, h3, h4⟩ := addDim_ok dims d (h d (List.mem_cons_self ..))
    simp only [List.map_cons, List.nodup_cons, List.mem_map, not_exists, not_and] at hnd
    obtain ⟨o2, k1, k2, k3, k4⟩ := addDims_ok ds o1 (by
      intro d' hd' e he hn
      rcases h2 e he with he | rfl
      · exact h d' (List.mem_cons_of_mem _ hd') e he hn
      · exact absurd hn.symm (hnd.1 d' hd')) hnd.2
    refine ⟨o2, by simp only [addDims, h1, k1], ?_, fun e he => k3 e (h3 e he), ?_⟩
    · intro e he
      rcases k2 e he with he | he
      · rcases h2 e he with he | rfl
        · exact .inl he
        · exact .inr (List.mem_cons_self ..)
      · exact .inr (List.mem_cons_of_mem _ he)
    · intro e he
      rcases List.mem_cons.1 he with rfl | he
      · exact k3 _ h4
      · exact k4 e he

theorem addDims_eq : ∀ (ds dims out : List Dim), addDims dims ds = .ok out → ∀ d ∈ ds, ∀ e, dims.find? (fun e => e.name == d.name) = some e → e = d
  | [], _, _, _, d, hd, _, _ => by simp at hd
  | d :: ds, dims, out, h, d', hd', e, he => by
    simp only [addDims] at h
    cases h1 : addDim dims d with
    | error x => rw [h1] at h; cases h
    | ok o1 =>
      rw [h1] at h
      rcases List.mem_cons.1 hd' with rfl | hd'
      · unfold addDim at h1
        rw [he] at h1
        simp only at h1
        by_cases h2 : e = d'
        · exact h2
        · rw [if_neg h2] at h1; cases h1
      · refine addDims_eq ds o1 out h d' hd' e ?_
        unfold addDim at h1
        cases h2 : dims.find? (fun e => e.name == d.name) with
        | none =>
          rw [h2] at h1
          simp only [Except.ok.injEq] at h1
          rw [← h1, List.find?_append, he]
          rfl
        | some e' =>
          rw [h2] at h1
          simp only at h1
          by_cases h3 : e' = d
          · rw [if_pos h3] at h1
            cases h1
            exact he
          · rw [if_neg h3] at h1; cases h1

theorem find_of_mem (dims : List Dim) (h : (dims.map (·.name)).Nodup) (e : Dim) (he : e ∈ dims) :
    dims.find? (fun x => x.name == e.name) = some e := by
  induction dims with
  | nil => simp at he
  | cons d ds ih =>
    simp only [List.map_cons, List.nodup_cons, List.mem_map, not_exists, not_and] at h
    rcases List.mem_cons.1 he with rfl | he
    · simp
    · have : d.name ≠ e.name := fun hn => h.1 e he hn.symm
      rw [List.find?_cons_of_neg (by simpa using this)]
      exact ih h.2 he

theorem get_of_mem (c : Coll) (h : (c.vars.map (·.name)).Nodup) (v : Var) (hv : v ∈ c.vars) : c.get? v.name = some v := by
  unfold Coll.get?
  generalize c.vars = l at h hv
  induction l with
  | nil => simp at hv
  | cons d ds ih =>
    simp only [List.map_cons, List.nodup_cons, List.mem_map, not_exists, not_and] at h
    rcases List.mem_cons.1 hv with rfl | hv
    · simp
    · have : d.name ≠ v.name := fun hn => h.1 v hv hn.symm
      rw [List.find?_cons_of_neg (by simpa using this)]
      exact ih h.2 hv

theorem get_none {c : Coll} {name : String} (h : ∀ v ∈ c.vars, v.name ≠ name) : c.get? name = none := by
  unfold Coll.get?
  rw [List.find?_eq_none]
  intro v hv
  simpa using h v hv

theorem has_iff (v : Var) (dim : String) : v.has dim = true ↔ ∃ d ∈ v.dims, d.name = dim := by
  simp [Var.has]

theorem axis_eq (dims : List Dim) (h : (dims.map (·.name)).Nodup) (a : Nat) (d : Dim) (hd : dims[a]? = some d) : axisOf dims d.name = a := by
  unfold axisOf
  induction dims generalizing a with
  | nil => simp at hd
  | cons e es ih =>
    simp only [List.map_cons, List.nodup_cons, List.mem_map, not_exists, not_and] at h
    cases a with
    | zero =>
      simp only [List.getElem?_cons_zero, Option.some.injEq] at hd
      subst hd
      simp [List.findIdx_cons]
    | succ a =>
      simp only [List.getElem?_cons_succ] at hd
      have hne : e.name ≠ d.name := fun hn => h.1 d (List.mem_of_getElem? hd) hn.symm
      rw [List.findIdx_cons]
      have := ih h.2 a hd
      rw [this, show (e.name == d.name) = false from by simpa using hne]
      rfl

theorem shape_eq {v src : Var} {dim : String} (h : OnePlaceAlong dim v src) : src.shape = slabShape v.dims dim := by
  obtain ⟨hl, hs⟩ := h
  unfold Var.shape slabShape
  apply List.ext_getElem?
  intro i
  by_cases hi : i < v.dims.length
  · have hi' : i < src.dims.length := hl ▸ hi
    have := hs i _ _ (List.getElem?_eq_getElem hi) (List.getElem?_eq_getElem hi')
    simp [hi, hi', this]
  · simp [show v.dims.length ≤ i by omega, show src.dims.length ≤ i by omega]

/-! ## Steps -/

theorem stackAll_fill (groups : List Coll) (dim : String) (n : Nat) : ∀ (vs : List Var) (ret out : Coll), stackAll groups dim n ret vs = .ok out →
    ∀ v ∈ vs, ∃ val, fillAll v dim 0 groups (fun _ => 0) = .ok val
  | [], _, _, _, v, hv => by simp at hv
  | v :: vs, ret, out, h, v', hv' => by
    simp only [stackAll] at h
    cases h1 : stackOne groups dim n ret v with
    | error e => rw [h1] at h; cases h
    | ok ret' =>
      rw [h1] at h
      rcases List.mem_cons.1 hv' with rfl | hv'
      · unfold stackOne at h1
        cases h2 : remove ret v'.name with
        | error e => rw [h2] at h1; cases h1
        | ok r =>
          rw [h2] at h1
          simp only at h1
          cases h3 : fillAll v' dim 0 groups (fun _ => 0) with
          | error e => rw [h3] at h1; cases h1
          | ok val => exact ⟨val, rfl⟩
      · exact stackAll_fill groups dim n vs ret' out h v' hv'

theorem groups_ok {groups : List (String × Coll)} {name dim : String} {r : Result} (h : groupsToVariable groups name dim = .ok r) :
    ∃ first rest c, groups = first :: rest ∧
      stackAll (groups.map (·.2)) dim groups.length first.2 (first.2.vars.filter fun v => v.has dim) = .ok c ∧ r.coll.vars = c.vars := by
  cases groups with
  | nil => cases h
  | cons first rest =>
    simp only [groupsToVariable] at h
    cases h1 : stackAll ((first :: rest).map (·.2)) dim (first :: rest).length first.2 (first.2.vars.filter fun v => v.has dim) with
    | error e => rw [h1] at h; cases h
    | ok c =>
      rw [h1] at h
      simp only at h
      cases h2 : addDim c.dims { name := dim, size := (first :: rest).length } with
      | error e => rw [h2] at h; cases h
      | ok dims =>
        rw [h2] at h
        simp only at h
        by_cases h3 : (c.get? name).isSome = true
        · rw [if_pos h3] at h; cases h
        · rw [if_neg h3] at h
          cases h
          exact ⟨first, rest, c, rfl, h1, rfl⟩

theorem remove_names {c out : Coll} {name : String} (h : remove c name = .ok out) : ∀ w ∈ out.vars, w ∈ c.vars ∧ w.name ≠ name := by
  unfold remove at h
  cases hg : c.get? name with
  | none => rw [hg] at h; cases h
  | some v =>
    rw [hg] at h
    simp only [Except.ok.injEq] at h
    rw [← h]
    intro w hw
    simp only [List.mem_filter, List.contains_cons, Bool.not_eq_true', Bool.or_eq_false_iff, beq_eq_false_iff_ne] at hw
    exact ⟨hw.1, hw.2.1⟩

theorem addVar_vars {c out : Coll} {v : Var} (h : addVar c v = .ok out) : out.vars = c.vars ++ [v] := by
  unfold addVar at h
  cases h1 : addDims c.dims v.dims with
  | error e => rw [h1] at h; cases h
  | ok dims =>
    rw [h1] at h
    simp only at h
    by_cases h2 : (c.get? v.name).isSome = true
    · rw [if_pos h2] at h; cases h
    · rw [if_neg h2] at h
      cases h
      rfl

theorem stackOne_parts {groups : List Coll} {dim : String} {n : Nat} {ret out : Coll} {v : Var} (h : stackOne groups dim n ret v = .ok out) :
    ∃ ret' val, remove ret v.name = .ok ret' ∧ fillAll v dim 0 groups (fun _ => 0) = .ok val ∧
      addVar ret' { blank v dim n with val := val } = .ok out := by
  unfold stackOne at h
  cases h2 : remove ret v.name with
  | error e => rw [h2] at h; cases h
  | ok r =>
    rw [h2] at h
    simp only at h
    cases h3 : fillAll v dim 0 groups (fun _ => 0) with
    | error e => rw [h3] at h; cases h
    | ok val =>
      rw [h3] at h
      exact ⟨r, val, rfl, rfl, h⟩

theorem stackAll_names (groups : List Coll) (dim : String) (n : Nat) : ∀ (vs : List Var) (ret out : Coll), stackAll groups dim n ret vs = .ok out →
    ∀ w ∈ out.vars, (∃ u ∈ ret.vars, u.name = w.name) ∨ ∃ u ∈ vs, u.name = w.name
  | [], ret, out, h, w, hw => by
    simp only [stackAll, Except.ok.injEq] at h
    subst h
    exact .inl ⟨w, hw, rfl⟩
  | v :: vs, ret, out, h, w, hw => by
    simp only [stackAll] at h
    cases h1 : stackOne groups dim n ret v with
    | error e => rw [h1] at h; cases h
    | ok ret' =>
      rw [h1] at h
      rcases stackAll_names groups dim n vs ret' out h w hw with ⟨u, hu, hn⟩ | ⟨u, hu, hn⟩
      · obtain ⟨r, val, e1, -, e3⟩ := stackOne_parts h1
        rw [addVar_vars e3] at hu
        rcases List.mem_append.1 hu with hu | hu
        · exact .inl ⟨u, (remove_names e1 u hu).1, hn⟩
        · simp only [List.mem_singleton] at hu
          exact .inr ⟨v, List.mem_cons_self .., by rw [← hn, hu]; rfl⟩
      · exact .inr ⟨u, List.mem_cons_of_mem _ hu, hn⟩

/-- Removing a variable without bounds. -/
theorem remove_plain (c : Coll) (h : (c.vars.map (·.name)).Nodup) (v : Var) (hv : v ∈ c.vars) (hb : v.bounds = none) :
    ∃ out, remove c v.name = .ok out ∧ out.vars = c.vars.filter (fun w => w.name != v.name) ∧
      ∀ d, d ∈ out.dims ↔ d ∈ c.dims ∧ ((∀ e ∈ v.dims, e.name ≠ d.name) ∨ ∃ w ∈ c.vars, w.name ≠ v.name ∧ w.has d.name = true) := by
  have hg := get_of_mem c h v hv
  refine ⟨_, by simp only [remove, hg, hb]; rfl, ?_, ?_⟩
  · apply List.filter_congr
    intro w _
    simp only [List.contains_cons, List.contains_nil, Bool.or_false, bne]
  · intro d
    simp only [List.mem_filter, Bool.or_eq_true, Bool.not_eq_true', List.any_eq_false, beq_iff_eq, List.any_eq_true, List.mem_flatMap, List.contains_cons,
      List.contains_nil, Bool.or_false]
    constructor
    · rintro ⟨hd, h1 | ⟨w, hw, hh⟩⟩
      · refine ⟨hd, .inl ?_⟩
        intro e he
        exact h1 e ⟨v, ⟨hv, rfl⟩, he⟩
      · refine ⟨hd, .inr ⟨w, hw.1, by simpa using hw.2, hh⟩⟩
    · rintro ⟨hd, h1 | ⟨w, hw, hn, hh⟩⟩
      · refine ⟨hd, .inl ?_⟩
        rintro e ⟨u, ⟨hu, hun⟩, he⟩
        have : u = v := by
          have g := get_of_mem c h u hu
          rw [hun, hg] at g
          cases g
          rfl
        subst this
        exact h1 e he
      · exact ⟨hd, .inr ⟨w, ⟨hw, by simpa using hn⟩, hh⟩⟩

/-- After removing, dimensions of variables that stay are there and names of dimensions differ. -/
theorem remove_dims {c out : Coll} {name : String} (h : remove c name = .ok out) (hd : (c.dims.map (·.name)).Nodup) :
    (out.dims.map (·.name)).Nodup ∧ ∀ w ∈ out.vars, ∀ d ∈ c.dims, w.has d.name = true → d ∈ out.dims := by
  unfold remove at h
  cases hg : c.get? name with
  | none => rw [hg] at h; cases h
  | some v =>
    rw [hg] at h
    simp only [Except.ok.injEq] at h
    rw [← h]
    constructor
    · exact List.Nodup.sublist (List.Sublist.map _ List.filter_sublist) hd
    · intro w hw d hd hh
      simp only [List.mem_filter, Bool.or_eq_true, List.any_eq_true]
      exact ⟨hd, .inr ⟨w, List.mem_filter.1 hw, hh⟩⟩

end Ocgis.Proofs.GroupStack
