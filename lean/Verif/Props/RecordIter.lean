import Verif.Proofs.RecordIter

namespace Ocgis.Props
open Ocgis Ocgis.RecordIter Ocgis.Spec Ocgis.Collection Ocgis.Masks

/-! ### Dictionaries -/

/-! ### Positions -/

/-! ### Pieces -/

/-! ### The properties -/

/-- **C54 (iterators as followers)**: iterating a fresh lead with any followers (variables, or iterators with
followers of their own, to any depth) whose dimensions are among those of the lead succeeds, and the rows are, in
row-major order of the lead, exactly one for every position that is not left out; the row at a position shows the
value of the lead and of every follower at the matching index and the repeaters, and nothing else. -/
theorem C54_nested_records {α : Type} (size : String → Nat) (lead : It α) (args : List (Arg α)) (hl : Leads size lead)
    (hf : ∀ f ∈ followersOf lead args, Follows size lead f)
    (hskip : lead.allowMasked = true → ∀ f ∈ followersOf lead args, f.allowMasked = true)
    (hc : Columns (lead :: followersOf lead args)) (reps : String → List (String × α)) :
    ∃ t out ps, mkIterator lead (some args) none = .ok t ∧ rows t none reps = .ok out
      ∧ Positions lead (lead :: followersOf lead args) ps ∧ out.length = ps.length
      ∧ ∀ (k : Nat) idx, ps[k]? = some idx →
          ∃ r, out[k]? = some r ∧ RowAt lead (lead :: followersOf lead args) idx r := by
  obtain ⟨fs, h1, h2⟩ := mkIterator_ok lead args none (fun f hm => (hf f hm).subset)
  have hr := rows_general size lead fs (followersOf lead args) h2 hl hf hskip none reps
  have hm := Ocgis.Mpi.mapM_ok ((kept lead (lead :: followersOf lead args)).map (recordRow lead (lead :: followersOf lead args)))
    (emit (!fs.isEmpty) none reps) (fun r => [r]) (fun r _ => rfl)
  rw [hm] at hr
  have hflat : (((kept lead (lead :: followersOf lead args)).map (recordRow lead (lead :: followersOf lead args))).map
      fun r => [r]).flatten = (kept lead (lead :: followersOf lead args)).map (recordRow lead (lead :: followersOf lead args)) := by
    induction (kept lead (lead :: followersOf lead args)).map (recordRow lead (lead :: followersOf lead args)) with
    | nil => rfl
    | cons a l ih => rw [List.map_cons, List.flatten_cons, ih]; rfl
  simp only [hflat] at hr
  refine ⟨_, _, _, h1, hr, kept_positions _ _, by simp, ?_⟩
  intro k idx hk
  refine ⟨recordRow lead (lead :: followersOf lead args) idx, ?_, recordRow_rowAt _ _ hc _⟩
  rw [List.getElem?_map, hk]; rfl

/-- **C54 (variables as followers)**: iterating a variable with follower variables on a subset of its dimensions
yields one row per position of the lead in row-major order; with masked records disallowed exactly the positions
where the primary-mask variable (the lead by default) is masked are left out, otherwise none; masked values show
as `None` and every other value is that of the variable at the matching index. -/
theorem C54_records {α : Type} (size : String → Nat) (v : Var α) (vs : List (Var α)) (allowMasked : Bool)
    (primary : Option String) (reps : String → List (String × α))
    (hs : ∀ w ∈ v :: vs, Sized size w ∧ w.repeatRecord = none) (hsub : ∀ w ∈ vs, ∀ d ∈ w.dims, d ∈ v.dims)
    (hn : ((v :: vs).map Var.name).Nodup) :
    ∃ (t : Tree α) (out : List (Row α)) (ps : List (List Nat)), mkIterator (leadOf v allowMasked primary) (some (vs.map .var)) none = .ok t
      ∧ rows t none reps = .ok out
      ∧ ps.Pairwise (· < ·)
      ∧ (∀ idx, idx ∈ ps ↔ IdxIn v.shape idx
          ∧ ¬ (allowMasked = false ∧ ∃ w ∈ v :: vs, w.name = primary.getD v.name ∧ MaskedAt w (indexAt v w idx)))
      ∧ out.length = ps.length
      ∧ ∀ (k : Nat) idx, ps[k]? = some idx → ∃ r, out[k]? = some r
          ∧ (∀ w ∈ v :: vs, (MaskedAt w (indexAt v w idx) → Dict.get? r w.name = some (.data none))
              ∧ (¬ MaskedAt w (indexAt v w idx) →
                  Dict.get? r w.name = some (.data (some (w.value (indexAt v w idx))))))
          ∧ ∀ n c, Dict.get? r n = some c → n ∈ (v :: vs).map Var.name := by
  have hfo := followersOf_vars (leadOf v allowMasked primary) vs
  have hall : leadOf v allowMasked primary :: followersOf (leadOf v allowMasked primary) (vs.map .var)
      = (v :: vs).map fun w => mkIt w allowMasked (some (primary.getD v.name)) none true := by
    rw [hfo]; rfl
  have hrep : ∀ w ∈ v :: vs, ∀ am pm, ((mkIt w am pm none true).repeaters.getD [] : List (String × α)) = [] := by
    intro w hw am pm
    simp [mkIt, joinRepeaters, (hs w hw).2]
  have hl : Leads size (leadOf v allowMasked primary) := ⟨rfl, (hs v (by simp)).1, rfl, rfl⟩
  have hc : Columns (leadOf v allowMasked primary :: followersOf (leadOf v allowMasked primary) (vs.map .var)) := by
    rw [hall]
    refine ⟨?_, ?_, ?_⟩
    · rw [List.map_map]; exact hn
    · intro f hf g hg p hp
      obtain ⟨w, hw, rfl⟩ := List.mem_map.1 hf
      rw [hrep w hw] at hp; simp at hp
    · intro f hf p hp
      obtain ⟨w, hw, rfl⟩ := List.mem_map.1 hf
      rw [hrep w hw] at hp; simp at hp
  obtain ⟨t, out, ps, h1, h2, h3, h4, h5⟩ := C54_nested_records size (leadOf v allowMasked primary) (vs.map .var) hl (by
      rw [hfo]
      intro f hf
      obtain ⟨w, hw, rfl⟩ := List.mem_map.1 hf
      exact ⟨rfl, (hs w (by simp [hw])).1, hsub w hw, fun _ => ⟨rfl, rfl⟩⟩) (by
      rw [hfo]
      intro ha f hf
      obtain ⟨w, hw, rfl⟩ := List.mem_map.1 hf
      exact ha) hc reps
  refine ⟨t, out, ps, h1, h2, h3.rowMajor, ?_, h4, ?_⟩
  · intro idx
    rw [h3.mem idx, hall]
    have : Omitted (leadOf v allowMasked primary)
        ((v :: vs).map fun w => mkIt w allowMasked (some (primary.getD v.name)) none true) idx
        ↔ (allowMasked = false ∧ ∃ w ∈ v :: vs, w.name = primary.getD v.name ∧ MaskedAt w (indexAt v w idx)) := by
      constructor
      · rintro ⟨a, f, hf, b, c, d⟩
        obtain ⟨w, hw, rfl⟩ := List.mem_map.1 hf
        exact ⟨a, w, hw, c.symm, d⟩
      · rintro ⟨a, w, hw, c, d⟩
        exact ⟨a, _, List.mem_map.2 ⟨w, hw, rfl⟩, a, c.symm, d⟩
    rw [this]; rfl
  · intro k idx hk
    obtain ⟨r, hr, hra⟩ := h5 k idx hk
    rw [hall] at hra
    refine ⟨r, hr, ?_, ?_⟩
    · intro w hw
      obtain ⟨c, hg, hsh⟩ := hra.values _ (List.mem_map.2 ⟨w, hw, rfl⟩)
      have hg' : Dict.get? r w.name = some c := hg
      rw [hg']
      exact ⟨fun hm => by rw [hsh.1 ⟨hm, rfl⟩], fun hm => by rw [hsh.2 (fun h => hm h.1)]; rfl⟩
    · intro n c hg
      rcases hra.nothingElse n c hg with ⟨f, hf, rfl⟩ | ⟨f, hf, p, hp, _⟩
      · obtain ⟨w, hw, rfl⟩ := List.mem_map.1 hf
        exact List.mem_map.2 ⟨w, hw, rfl⟩
      · obtain ⟨w, hw, rfl⟩ := List.mem_map.1 hf
        rw [hrep w hw] at hp; simp at hp

/-- A lead on two dimensions with one masked position, and a follower on the second dimension. -/
def demoLead : Var Nat :=
  { name := "tas", dims := ["t", "x"], shape := [2, 2], value := fun i => i.getD 0 0 * 10 + i.getD 1 0,
    mask := some fun i => decide (i = [0, 1]) }
def demoFollower : Var Nat := { name := "lon", dims := ["x"], shape := [2], value := fun i => 100 + i.getD 0 0 }

example : (∀ w ∈ [demoLead, demoFollower], Sized (fun _ => 2) w ∧ w.repeatRecord = none)
    ∧ (∀ w ∈ [demoFollower], ∀ d ∈ w.dims, d ∈ demoLead.dims)
    ∧ (([demoLead, demoFollower].map Var.name)).Nodup := by
  simp [demoLead, demoFollower, Sized]

/-! ### Melted rows -/

/-- **C54 (melted, partial)**: melted iteration with at least one follower yields, for every position that is not
left out in row-major order, one row per melted variable in the given order; each has the variable's name and value
at the position in their columns, the other variables unchanged, and no column for a melted variable.  Missing,
because false: that a row carries only the repeaters of its own variable (`C54_melted_repeaters_counterexample`),
and rows when there is no follower (`C54_melted_alone_counterexample`). -/
theorem C54_melted_partial {α : Type} (size : String → Nat) (lead : It α) (args : List (Arg α)) (hl : Leads size lead)
    (hne : followersOf lead args ≠ [])
    (hf : ∀ f ∈ followersOf lead args, Follows size lead f)
    (hskip : lead.allowMasked = true → ∀ f ∈ followersOf lead args, f.allowMasked = true)
    (hc : Columns (lead :: followersOf lead args))
    (ms : List String) (hnd : ms.Nodup) (hms : ∀ m ∈ ms, ∃ f ∈ lead :: followersOf lead args, f.var.name = m)
    (reps : String → List (String × α))
    (hheads : ∀ f ∈ lead :: followersOf lead args, f.var.name ≠ "VARIABLE" ∧ f.var.name ≠ "VALUE")
    (hreps : ∀ m ∈ ms, ∀ p ∈ reps m, ∀ f ∈ lead :: followersOf lead args, p.1 ≠ f.var.name) :
    ∃ (t : Tree α) (groups : List (List (Row α))) (ps : List (List Nat)),
      mkIterator lead (some args) (some ms) = .ok t ∧ rows t (some ms) reps = .ok groups.flatten
      ∧ Positions lead (lead :: followersOf lead args) ps ∧ groups.length = ps.length
      ∧ ∀ (k : Nat) idx, ps[k]? = some idx → ∃ g, groups[k]? = some g ∧ g.length = ms.length
          ∧ ∀ (j : Nat) m, ms[j]? = some m →
              ∃ r, g[j]? = some r ∧ MeltedAt lead (lead :: followersOf lead args) ms m idx r := by
  obtain ⟨fs, h1, h2⟩ := mkIterator_ok lead args (some ms) (fun f hm => (hf f hm).subset)
  have hr := rows_general size lead fs (followersOf lead args) h2 hl hf hskip (some ms) reps
  have hfs : (!fs.isEmpty) = true := by
    cases fs with
    | nil => simp only [List.map_nil] at h2; exact absurd (List.map_eq_nil_iff.1 h2.symm) hne
    | cons _ _ => rfl
  rw [hfs] at hr
  have hem := fun idx => emit_melted lead (lead :: followersOf lead args) hc ms hnd hms reps hheads hreps idx
  let G : List Nat → List (Row α) := fun idx => (hem idx).choose
  have hG : ∀ idx, emit true (some ms) reps (recordRow lead (lead :: followersOf lead args) idx) = .ok (G idx)
      ∧ (G idx).length = ms.length ∧ ∀ (j : Nat) m, ms[j]? = some m →
        ∃ r, (G idx)[j]? = some r ∧ MeltedAt lead (lead :: followersOf lead args) ms m idx r :=
    fun idx => (hem idx).choose_spec
  have hm := Ocgis.Mpi.mapM_ok (kept lead (lead :: followersOf lead args))
    (fun idx => emit true (some ms) reps (recordRow lead (lead :: followersOf lead args) idx)) G (fun idx _ => (hG idx).1)
  rw [List.mapM_map] at hr
  have hr' : rows (.mk lead fs) (some ms) reps = .ok ((kept lead (lead :: followersOf lead args)).map G).flatten := by
    rw [hr]
    have hm' : (kept lead (lead :: followersOf lead args)).mapM
      (emit true (some ms) reps ∘ recordRow lead (lead :: followersOf lead args)) = _ := hm
    rw [hm']
  refine ⟨_, (kept lead (lead :: followersOf lead args)).map G, kept lead (lead :: followersOf lead args), h1, hr',
    kept_positions _ _, by simp, ?_⟩
  intro k idx hk
  exact ⟨G idx, by rw [List.getElem?_map, hk]; rfl, (hG idx).2.1, (hG idx).2.2⟩

example : ∃ out, rows (.mk (leadOf demoLead false none) [.mk (attached (leadOf demoLead false none)
      (mkIt demoFollower false (some "tas") none true)) []]) (some ["tas", "lon"]) (fun _ => []) = .ok out
      ∧ out.length = 6 :=
  ⟨_, rfl, rfl⟩

/-- **C54 (counterexample, melted repeaters)**: a melted row carries the repeaters of the variables before it: here the
row of `b`, which has none, shows the repeater of `a`. -/
theorem C54_melted_repeaters_counterexample :
    let a : Var Nat :=
      { name := "a", dims := ["x"], shape := [1], value := fun _ => 1, repeatRecord := some [("CALC", 7)] }
    ∃ t out r, mkIterator (leadOf a true none)
        (some [.var { name := "b", dims := ["x"], shape := [1], value := fun _ => 2 }]) (some ["a", "b"]) = .ok t
      ∧ rows t (some ["a", "b"]) (fun n => if n = "a" then [("CALC", 7)] else []) = .ok out
      ∧ out[1]? = some r ∧ Dict.get? r "VARIABLE" = some (.text "b") ∧ Dict.get? r "CALC" = some (.data (some 7)) :=
  ⟨_, _, _, rfl, rfl, rfl, rfl, rfl⟩

/-- **C54 (counterexample, melting a lone variable)**: with an empty list of followers melted iteration yields no row
at all. -/
theorem C54_melted_alone_counterexample :
    ∃ t, mkIterator (leadOf demoLead true none) (some []) (some ["tas"]) = .ok t
      ∧ rows t (some ["tas"]) (fun _ => []) = .ok [] ∧ ∃ out, rows t none (fun _ => []) = .ok out ∧ out.length = 4 :=
  ⟨_, rfl, rfl, _, rfl, rfl⟩

/-- **C54 (counterexample, order)**: a follower that already follows an iterator with the dimensions the other way
round keeps that order when both follow a lead with the follower's own dimensions: at position `(0, 1)` of the lead
the follower shows its value at `(1, 0)`. -/
theorem C54_stale_order_counterexample :
    let v : Var Nat := { name := "v", dims := ["a", "b"], shape := [2, 2], value := fun i => i.getD 0 0 * 10 + i.getD 1 0 }
    let w : Var Nat := { name := "w", dims := ["b", "a"], shape := [2, 2], value := fun i => i.getD 0 0 * 10 + i.getD 1 0 }
    let u : Var Nat := { name := "u", dims := ["a", "b"], shape := [2, 2], value := fun i => i.getD 0 0 * 10 + i.getD 1 0 }
    ∃ mid t out r, mkIterator (leadOf w true none) (some [.var u]) none = .ok mid
      ∧ mkIterator (leadOf v true none) (some [.iter mid]) none = .ok t
      ∧ rows t none (fun _ => []) = .ok out ∧ out[1]? = some r
      ∧ Dict.get? r "v" = some (.data (some 1)) ∧ Dict.get? r "w" = some (.data (some 10))
      ∧ Dict.get? r "u" = some (.data (some 10)) :=
  ⟨_, _, _, _, rfl, rfl, rfl, rfl, rfl, rfl, rfl⟩

/-- **C54 (counterexample, mixed masking)**: a lead that allows masked records with a follower iterator that does not
raises a `TypeError` at the first masked position of the follower. -/
theorem C54_mixed_masking_counterexample :
    ∃ t, mkIterator (leadOf { demoLead with mask := none } true none)
        (some [.iter (.mk (leadOf { demoFollower with mask := some fun i => decide (i = [1]) } false none) [])]) none = .ok t
      ∧ rows t none (fun _ => []) = .error .typeError :=
  ⟨_, rfl, rfl⟩

/-- **C54 (counterexample, reuse)**: following a lead changes the follower: iterated by itself afterwards, a variable
with two values yields four rows. -/
theorem C54_reuse_counterexample :
    ∃ f out out', attach (leadOf demoLead true none) (.mk (leadOf demoFollower true none) []) = .ok f
      ∧ rows (.mk (leadOf demoFollower true none) []) none (fun _ => []) = .ok out ∧ out.length = 2
      ∧ rows f none (fun _ => []) = .ok out' ∧ out'.length = 4 :=
  ⟨_, _, _, rfl, rfl, rfl, rfl, rfl⟩

/-! ### `get_iter` -/

/-- **C54 (iterating bounds)**: iterating a one-dimensional variable with its bounds yields, for every index in
order, the value and its lower and upper bound. -/
theorem C54_bounds_iteration {α : Type} (v : Var α) (d : String) (n : Nat) (b : Nat → α × α) (hd : v.dims = [d])
    (hs : v.shape = [n]) (hb : v.bounds = some b) (hr : v.repeatRecord = none)
    (hn : (v.name :: ["lb_" ++ v.name, "ub_" ++ v.name]).Nodup) (hm : v.mask = none) :
    ∃ (t : Tree α) (v' : Var α) (out : List (Row α)), getIter true none v = (.ok t, v')
      ∧ rows t none (fun _ => []) = .ok out ∧ out.length = n
      ∧ ∀ k : Nat, k < n → ∃ r, out[k]? = some r
          ∧ Dict.get? r v.name = some (.data (some (v.value [k])))
          ∧ Dict.get? r ("lb_" ++ v.name) = some (.data (some (b k).1))
          ∧ Dict.get? r ("ub_" ++ v.name) = some (.data (some (b k).2)) := by
  let lo : Var α := { name := "lb_" ++ v.name, dims := v.dims, shape := v.shape, value := fun i => (b (i.headD 0)).1 }
  let up : Var α := { name := "ub_" ++ v.name, dims := v.dims, shape := v.shape, value := fun i => (b (i.headD 0)).2 }
  have hv : { v with repeatRecord := none } = v := by cases v; simp_all
  obtain ⟨t, out, ps, h1, h2, h3, h4, h5, h6⟩ := C54_records (fun _ => n) v [lo, up] true none (fun _ => [])
    (by
      intro w hw
      have : w.shape = [n] ∧ w.dims = [d] ∧ w.repeatRecord = none := by
        simp only [List.mem_cons, List.not_mem_nil, or_false] at hw
        rcases hw with rfl | rfl | rfl
        · exact ⟨hs, hd, hr⟩
        · exact ⟨hs, hd, rfl⟩
        · exact ⟨hs, hd, rfl⟩
      exact ⟨⟨by rw [this.1, this.2.1]; rfl, by rw [this.2.1]; simp⟩, this.2.2⟩)
    (by
      intro w hw x hx
      simp only [List.mem_cons, List.not_mem_nil, or_false] at hw
      rcases hw with rfl | rfl <;> exact hx)
    hn
  have hps : ps = (List.range n).map fun k => [k] := by
    have hsort : ((List.range n).map fun k => [k]).Pairwise (· < ·) := by
      rw [List.pairwise_map]
      exact List.pairwise_lt_range.imp fun h => List.Lex.rel h
    have hmem : ∀ idx, idx ∈ ps ↔ idx ∈ (List.range n).map fun k => [k] := by
      intro idx
      rw [h4 idx, hs]
      constructor
      · rintro ⟨⟨hlen, hk⟩, -⟩
        match idx, hlen with
        | [k], _ => exact List.mem_map.2 ⟨k, by have := hk 0 (by simp); simpa using this, rfl⟩
      · intro hidx
        obtain ⟨k, hk, rfl⟩ := List.mem_map.1 hidx
        refine ⟨⟨rfl, ?_⟩, by simp⟩
        intro j hj
        have : j = 0 := by simp at hj; exact hj
        subst this; simpa using hk
    apply List.Perm.eq_of_pairwise (le := (· < ·)) _ h3 hsort
    · rw [List.perm_ext_iff_of_nodup]
      · exact hmem
      · exact h3.imp fun h e => by subst e; exact List.lt_irrefl _ h
      · exact hsort.imp fun h e => by subst e; exact List.lt_irrefl _ h
    · intro a b _ _ hab hba
      exact absurd (List.lt_trans hab hba) (List.lt_irrefl _)
  refine ⟨t, v, out, ?_, h2, by rw [h5, hps]; simp, ?_⟩
  · have hfol : getIterFollowers true v = .ok (some (boundsFollowers v b)) := by
      simp [getIterFollowers, hb, hd]
    have hit : ({ mkIt { v with repeatRecord := none } true none none true with repeaters := none } : It α)
        = leadOf v true none := by
      rw [hv, leadOf, mkIt]; simp [joinRepeaters, hr]
    simp only [getIter, hfol, getIterRepeaters, hr, hit]
    have : mkIterator (leadOf v true none) (some (boundsFollowers v b)) none = .ok t := h1
    rw [this]
    rw [hb] at hv
    simp [hb, hv]
  · intro k hk
    have hpk : ps[k]? = some [k] := by rw [hps]; simp [hk]
    obtain ⟨r, g1, g2, -⟩ := h6 k [k] hpk
    have hidx : ∀ w : Var α, w.dims = [d] → indexAt v w [k] = [k] := by
      intro w hw
      simp [indexAt, hw, hd]
    have hun : ∀ w : Var α, w.mask = none → ¬ MaskedAt w (indexAt v w [k]) := by
      rintro w hw ⟨m, hm', _⟩; rw [hw] at hm'; simp at hm'
    refine ⟨r, g1, ?_, ?_, ?_⟩
    · have := (g2 v (by simp)).2 (hun v hm); rwa [hidx v hd] at this
    · have := (g2 lo (by simp)).2 (hun lo rfl); rw [hidx lo hd] at this; exact this
    · have := (g2 up (by simp)).2 (hun up rfl); rw [hidx up hd] at this; exact this

example : (("x" :: ["lb_" ++ "x", "ub_" ++ "x"]) : List String).Nodup := by decide

/-- **C54 (counterexample, bounds not asked for)**: `get_iter` on any variable with bounds raises a `TypeError` unless
the bounds are asked for. -/
theorem C54_get_iter_counterexample {α : Type} (v : Var α) (b : Nat → α × α) (hb : v.bounds = some b)
    (reps : Option (List (String × α))) : (getIter false reps v).1 = .error .typeError := by
  simp [getIter, getIterFollowers, hb, mkIterator]

/-- The variable after a number of `get_iter` calls. -/
def afterGetIters {α : Type} : Nat → Var α → Var α
  | 0, v => v
  | n + 1, v => afterGetIters n (getIter false none v).2

/-- **C54 (counterexample, repeat record)**: every `get_iter` call doubles the variable's own list of repeated columns:
after `n` calls it is `2 ^ n` times as long. -/
theorem C54_repeat_record_counterexample {α : Type} (n : Nat) (v : Var α) (o : List (String × α))
    (h : v.repeatRecord = some o) :
    ∃ o', (afterGetIters n v).repeatRecord = some o' ∧ o'.length = 2 ^ n * o.length := by
  induction n generalizing v o with
  | zero => exact ⟨o, h, by simp⟩
  | succ n ih =>
    have hv : (getIter false none v).2.repeatRecord = some (o ++ o) := by
      have hfol : getIterFollowers false v = .ok none := by
        rw [getIterFollowers]; cases v.bounds <;> rfl
      simp only [getIter, hfol, getIterRepeaters, h, mkIterator]
      simp
    obtain ⟨o', h1, h2⟩ := ih _ _ hv
    refine ⟨o', h1, ?_⟩
    rw [h2, List.length_append, Nat.pow_succ]
    rw [Nat.mul_assoc]; congr 1; omega

example : ({ demoLead with repeatRecord := some [("CALC", 7)] } : Var Nat).repeatRecord = some [("CALC", 7)] := rfl

end Ocgis.Props
