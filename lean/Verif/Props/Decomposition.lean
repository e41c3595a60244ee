import Verif.Proofs.ScatterGather
import Verif.Proofs.MapM
/-!
# C01–C05: decomposition, distribution, scatter/gather, distributed slices
-/
namespace Ocgis.Props
open Spec Mpi

/-! ## C01 -/

/-- C01.  For every element count, every positive process count: each rank gets a range or nothing (never an
error); the ranges in rank order concatenate to `0, ..., n-1`; a rank gets nothing exactly when it is at or
above `min n size`; ranges are non-empty and their lengths differ by at most one. -/
theorem C01_rank_bounds_partition (n size : Nat) (hsize : 0 < size) :
    ∃ b : Nat → Option (Nat × Nat),
      (∀ rank, getRankBounds n size rank = .ok (b rank))
      ∧ (List.range size).flatMap (fun r => indices (b r)) = List.range n
      ∧ (∀ rank, b rank = none ↔ min n size ≤ rank)
      ∧ (∀ r r' lo hi lo' hi', b r = some (lo, hi) → b r' = some (lo', hi') →
          lo < hi ∧ hi - lo ≤ hi' - lo' + 1) := by
  refine ⟨fun rank => if rank < min n size then some (splitPoint n size rank, splitPoint n size (rank + 1)) else none,
    getRankBounds_eq n size, ?_, ?_, ?_⟩
  · have key : (List.range size).flatMap (fun r => indices
        (if r < min n size then some (splitPoint n size r, splitPoint n size (r + 1)) else none))
        = (List.range size).flatMap (fun i => rangeFrom (splitPoint n size i) (splitPoint n size (i + 1))) := by
      unfold List.flatMap
      congr 1
      apply List.map_congr_left
      intro r hr
      have hr' : r < size := by simpa using hr
      split
      · rfl
      · next h =>
        have hn : n / size = 0 := Nat.div_eq_of_lt (by omega)
        have hn2 : n % size = n := Nat.mod_eq_of_lt (by omega)
        have h1 := splitPoint_step n size r
        rw [hn, hn2, if_neg (by omega)] at h1
        exact (rangeFrom_of_le (by omega)).symm
    rw [key, flatMap_consecutive _ (splitPoint_mono n size), splitPoint_zero, splitPoint_size n size hsize,
      rangeFrom_zero]
  · intro rank
    simp only
    split <;> simp <;> omega
  · intro r r' lo hi lo' hi' h1 h2
    have g1 : r < min n size := by
      simp only [Option.ite_none_right_eq_some] at h1; exact h1.1
    have g2 : r' < min n size := by
      simp only [Option.ite_none_right_eq_some] at h2; exact h2.1
    simp only [g1, g2, if_true, Option.some.injEq, Prod.mk.injEq] at h1 h2
    have := splitPoint_lt n size r g1
    have s1 := splitPoint_step n size r
    have s2 := splitPoint_step n size r'
    refine ⟨by omega, ?_⟩
    have : (if r < n % size then 1 else 0) ≤ 1 := by split <;> omega
    omega

/-- Seven elements on three ranks. -/
example : getRankBounds 7 3 0 = .ok (some (0, 3)) ∧ getRankBounds 7 3 1 = .ok (some (3, 5))
    ∧ getRankBounds 7 3 2 = .ok (some (5, 7)) ∧ getRankBounds 2 3 2 = .ok none := by decide

/-! ## C02 -/

/-- The full statement of C02 for one distributed dimension: after the update, the pieces of all ranks
concatenate, in rank order, to the original dimension. -/
def C02_statement (size minE : Nat) (d : Dim) : Prop :=
  ∃ rs : List Dim, (List.range size).mapM (fun rank => updateDistributed size minE rank d) = .ok rs
    ∧ rs.length = size
    ∧ (rs.flatMap fun r => if r.isEmpty then [] else intRange r.boundsLocal.1 r.boundsLocal.2) = intRange 0 d.len
    ∧ (d.srcIdx ≠ none → rs.flatMap sources = sources d)
    ∧ (∀ r ∈ rs, r.isEmpty = true ↔ r.len = 0)
    ∧ (∀ r ∈ rs, r.isEmpty = false →
        r.len = r.boundsLocal.2 - r.boundsLocal.1 ∧ r.boundsGlobal = (0, d.len) ∧ Aligned r)

/-- C02, partial: the statement holds whenever the dimension has at least `min_elements` elements or there is
only one rank.  Missing: `0 < len < min_elements` on several ranks, where it is false (next theorem). -/
theorem C02_update_dimension_bounds_partial (size minE : Nat) (d : Dim) (hsize : 0 < size) (hmin : 1 ≤ minE)
    (hd : d.dist = true) (he : d.isEmpty = false) (hal : Aligned d) (h0 : 0 ≤ d.len)
    (hguard : size = 1 ∨ d.len = 0 ∨ (minE : Int) ≤ d.len) : C02_statement size minE d := by
  obtain ⟨n, hn⟩ : ∃ n : Nat, d.len = n := ⟨d.len.toNat, by omega⟩
  generalize hm : effectiveSize size minE n = m
  have hm1 : m ≤ size ∧ m ≤ n ∧ (0 < n → 0 < m) := by
    rw [← hm]
    unfold effectiveSize
    have h1 : n / minE ≤ n := Nat.div_le_self _ _
    have h2 : minE ≤ n → 1 ≤ n / minE := fun h => (Nat.le_div_iff_mul_le (by omega)).2 (by omega)
    simp only
    generalize n / minE = q at *
    split <;> split <;> omega
  have hex : ∀ rank, ∃ r, updateDistributed size minE rank d = .ok r ∧ Piece d n m rank r := by
    intro rank; rw [← hm]; exact updateDistributed_ok size minE rank d n hn hd he hal
  let f : Nat → Dim := fun rank => Classical.choose (hex rank)
  have hf1 : ∀ rank, updateDistributed size minE rank d = .ok (f rank) := fun r => (Classical.choose_spec (hex r)).1
  have hf2 : ∀ rank, Piece d n m rank (f rank) := fun r => (Classical.choose_spec (hex r)).2
  have hminnm : min n m = m := by omega
  have hsplit : List.range size = List.range m ++ List.range' m (size - m) := by
    rw [List.range_eq_range', List.range_eq_range']
    have := List.range'_append (s := 0) (step := 1) (m := m) (n := size - m)
    rw [show m + (size - m) = size by omega] at this
    simpa using this.symm
  refine ⟨(List.range size).map f, mapM_ok _ _ _ (fun r _ => hf1 r), by simp, ?_, ?_, ?_, ?_⟩
  · rw [hsplit, List.map_append, List.flatMap_append]
    have e2 : ((List.range' m (size - m)).map f).flatMap
        (fun r => if r.isEmpty then [] else intRange r.boundsLocal.1 r.boundsLocal.2) = [] := by
      rw [List.flatMap_eq_nil_iff]
      intro x hx
      obtain ⟨r, hr, rfl⟩ := List.mem_map.1 hx
      rw [List.mem_range'_1] at hr
      rw [if_pos ((hf2 r).empty (by omega)).1]
    rw [e2, List.append_nil, List.flatMap_map]
    have e1 : ∀ k, k ≤ m → (List.range k).flatMap (fun r => if (f r).isEmpty then [] else
        intRange (f r).boundsLocal.1 (f r).boundsLocal.2) = intRange 0 (splitPoint n m k) := by
      intro k hk
      induction k with
      | zero => simp [splitPoint_zero, intRange]
      | succ k ih =>
        rw [List.range_succ, List.flatMap_append, ih (by omega)]
        obtain ⟨h1, h2, _⟩ := (hf2 k).live (by omega)
        simp only [List.flatMap_cons, List.flatMap_nil, List.append_nil, h1, h2]
        have := splitPoint_mono n m k
        exact intRange_append (by omega) (by omega)
    rw [e1 m (by omega), hn]
    by_cases hz : n = 0
    · have : m = 0 := by omega
      subst hz; subst this; rw [splitPoint_zero]
    · rw [splitPoint_size n m (by omega)]
  · intro hs
    rw [hsplit, List.map_append, List.flatMap_append]
    have e2 : ((List.range' m (size - m)).map f).flatMap sources = [] := by
      rw [List.flatMap_eq_nil_iff]
      intro x hx
      obtain ⟨r, hr, rfl⟩ := List.mem_map.1 hx
      rw [List.mem_range'_1] at hr
      simp [sources, ((hf2 r).empty (by omega)).2.2]
    rw [e2, List.append_nil, List.flatMap_map]
    have e1 : (List.range m).flatMap (fun r => sources (f r)) = (List.range m).flatMap (fun i =>
        ((sources d).drop (splitPoint n m i)).take (splitPoint n m (i + 1) - splitPoint n m i)) := by
      unfold List.flatMap
      congr 1
      apply List.map_congr_left
      intro r hr
      obtain ⟨_, _, _, _, _, _, _, _, _, h10⟩ := (hf2 r).live (by rw [hminnm]; simpa using hr)
      exact h10
    have hsl := sources_length d hal hs
    rw [e1, flatMap_slices _ _ (splitPoint_mono n m), splitPoint_zero]
    by_cases hz : n = 0
    · have : m = 0 := by omega
      subst hz; subst this
      have : sources d = [] := List.eq_nil_of_length_eq_zero (by omega)
      simp [this]
    · rw [splitPoint_size n m (by omega)]
      rw [List.drop_zero, List.take_of_length_le (by omega)]
  · intro x hx
    obtain ⟨r, _, rfl⟩ := List.mem_map.1 hx
    by_cases hr : r < min n m
    · obtain ⟨h1, _, _, h4, _⟩ := (hf2 r).live hr
      have := splitPoint_lt n m r hr
      rw [h1]; simp; omega
    · obtain ⟨h1, h2, _⟩ := (hf2 r).empty hr
      simp [h1, h2]
  · intro x hx hxe
    obtain ⟨r, _, rfl⟩ := List.mem_map.1 hx
    by_cases hr : r < min n m
    · obtain ⟨_, h2, h3, h4, h5, _⟩ := (hf2 r).live hr
      refine ⟨by rw [h2, h4], by rw [h3, hn], h5⟩
    · have := ((hf2 r).empty hr).1
      rw [this] at hxe; cases hxe

/-- A ten-element dimension with array source indices on three ranks. -/
example : C02_statement 3 2
    ⟨"x", some 5, none, true, false, none, none, some (.fancy [4, 8, 15, 16, 23])⟩ :=
  C02_update_dimension_bounds_partial 3 2 _ (by decide) (by decide) rfl rfl (by decide) (by decide) (by decide)

/-- C02 is false of the code: a one-element dimension distributed over two ranks with the default
`min_elements=2` is emptied on every rank, so its element is owned by nobody. -/
theorem C02_update_dimension_bounds_counterexample :
    ∃ (size minE : Nat) (d : Dim), 0 < size ∧ 1 ≤ minE ∧ d.dist = true ∧ d.isEmpty = false ∧ Aligned d ∧ 0 < d.len
      ∧ ¬ C02_statement size minE d := by
  refine ⟨2, 2, ⟨"x", some 1, none, true, false, none, none, some (.bounds 0 1)⟩, by decide, by decide, rfl, rfl,
    by decide, by decide, ?_⟩
  rintro ⟨rs, h1, h2, h3, -⟩
  have : (List.range 2).mapM (fun rank => updateDistributed 2 2 rank
      ⟨"x", some 1, none, true, false, none, none, some (.bounds 0 1)⟩)
      = .ok [⟨"x", some 0, some 0, true, true, some (0, 0), some (0, 0), none⟩,
             ⟨"x", some 0, some 0, true, true, some (0, 0), some (0, 0), none⟩] := by rfl
  rw [this] at h1
  injection h1 with h1
  subst h1
  revert h3
  decide

/-- The group-level rule: on every rank exactly one dimension (a longest distributed one) stays distributed
and is split as in C02; every other dimension keeps its length, bounds and source index and is whole. -/
theorem C02_group_update (size minE rank : Nat) (dims : List Dim)
    (hnames : (dims.map (·.name)).Nodup)
    (hwf : ∀ d ∈ dims, d.dist = true → d.isEmpty = false ∧ Aligned d ∧ 0 ≤ d.len) :
    ∃ rs, updateGroup size minE rank dims = .ok rs ∧ rs.length = dims.length
      ∧ ((∀ d ∈ dims, d.dist = false) → rs = dims)
      ∧ ((∃ d ∈ dims, d.dist = true) →
          ∃ c ∈ dims, c.dist = true ∧ (∀ d ∈ dims, d.dist = true → d.len ≤ c.len)
            ∧ ∀ (i : Nat) (d r : Dim), dims[i]? = some d → rs[i]? = some r →
                (d.name = c.name → updateDistributed size minE rank c = .ok r)
                ∧ (d.name ≠ c.name → r = { d with dist := false })) := by
  have hmem_fold : ∀ (ds : List Dim) (m : Int) (acc : Option Dim),
      (∃ c, ds.foldl (fun acc d => if d.len = m then some d else acc) acc = some c ∧ c ∈ ds ∧ c.len = m)
      ∨ (ds.foldl (fun acc d => if d.len = m then some d else acc) acc = acc ∧ ∀ d ∈ ds, d.len ≠ m) := by
    intro ds m
    induction ds with
    | nil => intro acc; right; simp
    | cons d ds ih =>
      intro acc
      rw [List.foldl_cons]
      rcases ih (if d.len = m then some d else acc) with ⟨c, h1, h2, h3⟩ | ⟨h1, h2⟩
      · left; exact ⟨c, h1, by simp [h2], h3⟩
      · by_cases hd : d.len = m
        · left; rw [h1, if_pos hd]; exact ⟨d, rfl, by simp, hd⟩
        · right; rw [h1, if_neg hd]
          refine ⟨rfl, ?_⟩
          intro x hx
          rcases List.mem_cons.1 hx with rfl | hx
          · exact hd
          · exact h2 x hx
  have hmax : ∀ (ds : List Dim) (m0 : Int), (∀ d ∈ ds, d.len ≤ ds.foldl (fun (m : Int) d => max m d.len) m0)
      ∧ m0 ≤ ds.foldl (fun (m : Int) d => max m d.len) m0
      ∧ (ds.foldl (fun (m : Int) d => max m d.len) m0 = m0 ∨ ∃ d ∈ ds, d.len = ds.foldl (fun (m : Int) d => max m d.len) m0) := by
    intro ds
    induction ds with
    | nil => intro m0; simp
    | cons d ds ih =>
      intro m0
      rw [List.foldl_cons]
      obtain ⟨h1, h2, h3⟩ := ih (max m0 d.len)
      refine ⟨?_, by omega, ?_⟩
      · intro x hx
        rcases List.mem_cons.1 hx with rfl | hx
        · omega
        · exact h1 x hx
      · rcases h3 with h3 | ⟨x, hx, h3⟩
        · by_cases hm0 : d.len ≤ m0
          · left; rw [h3]; omega
          · right; exact ⟨d, by simp, by rw [h3]; omega⟩
        · right; exact ⟨x, by simp [hx], h3⟩
  unfold updateGroup
  by_cases hex : ∃ d ∈ dims, d.dist = true
  · obtain ⟨d0, hd0, hd0d⟩ := hex
    have hchoose : ∃ c, chooseDistributed dims = some c ∧ c ∈ dims ∧ c.dist = true
        ∧ ∀ d ∈ dims, d.dist = true → d.len ≤ c.len := by
      unfold chooseDistributed
      simp only
      obtain ⟨g1, g2, g3⟩ := hmax (dims.filter (·.dist)) 0
      rcases hmem_fold (dims.filter (·.dist)) ((dims.filter (·.dist)).foldl (fun (m : Int) d => max m d.len) 0) none with
        ⟨c, h1, h2, h3⟩ | ⟨h1, h2⟩
      · rw [List.mem_filter] at h2
        refine ⟨c, h1, h2.1, h2.2, ?_⟩
        intro d hd hdd
        rw [h3]
        exact g1 d (List.mem_filter.2 ⟨hd, hdd⟩)
      · exfalso
        have hmem0 : d0 ∈ dims.filter (·.dist) := List.mem_filter.2 ⟨hd0, hd0d⟩
        rcases g3 with g3 | ⟨d, hd, g3⟩
        · have := g1 d0 hmem0
          have h0 := (hwf d0 hd0 hd0d).2.2
          exact h2 d0 hmem0 (by omega)
        · exact h2 d hd g3
    obtain ⟨c, hc1, hc2, hc3, hc4⟩ := hchoose
    rw [hc1]
    simp only
    obtain ⟨w1, w2, w3⟩ := hwf c hc2 hc3
    obtain ⟨r, hr, _⟩ := updateDistributed_ok size minE rank c c.len.toNat (by omega) hc3 w1 w2
    have hname : ∀ d ∈ dims, d.name = c.name → d = c := by
      intro d hd hdc
      exact eq_of_nodup_map hnames hd hc2 hdc
    refine ⟨dims.map (fun d => if d.name = c.name then r else { d with dist := false }), ?_, by simp, ?_, ?_⟩
    · apply mapM_ok
      intro d hd
      by_cases hdc : d.name = c.name
      · rw [if_pos hdc, if_pos hdc, hname d hd hdc, hr]
      · rw [if_neg hdc, if_neg hdc]
    · intro hall; rw [hall c hc2] at hc3; cases hc3
    · intro _
      refine ⟨c, hc2, hc3, hc4, ?_⟩
      intro i d x hd hx
      rw [List.getElem?_map, hd] at hx
      simp only [Option.map_some, Option.some.injEq] at hx
      constructor
      · intro hdc; rw [if_pos hdc] at hx; rw [← hx]; exact hr
      · intro hdc; rw [if_neg hdc] at hx; exact hx.symm
  · have hnone : dims.filter (·.dist) = [] := by
      rw [List.filter_eq_nil_iff]
      intro d hd hdd
      exact hex ⟨d, hd, hdd⟩
    have : chooseDistributed dims = none := by
      unfold chooseDistributed; rw [hnone]; rfl
    rw [this]
    exact ⟨dims, rfl, rfl, fun _ => rfl, fun h => absurd h hex⟩

example : updateGroup 2 2 1
    [⟨"time", some 3, none, false, false, none, none, none⟩, ⟨"x", some 5, none, true, false, none, none, some (.bounds 10 15)⟩]
    = .ok [⟨"time", some 3, none, false, false, none, none, none⟩,
           ⟨"x", some 2, some 2, true, false, some (3, 5), some (0, 5), some (.bounds 13 15)⟩] := by decide

/-- C02, all ranks and groups: the update succeeds on every rank and group that C02's group rule applies to, each
rank's group being updated for that rank with the total number of ranks; a second update is refused, whatever its
minimum. -/
theorem C02_whole_update (o : OcgDist) (minE : Nat) (hnew : o.hasUpdated = false) (hmin : 1 ≤ minE)
    (hranks : o.mapping.length = o.size)
    (hnames : ∀ groups ∈ o.mapping, ∀ dims ∈ groups, (dims.map (·.name)).Nodup)
    (hwf : ∀ groups ∈ o.mapping, ∀ dims ∈ groups, ∀ d ∈ dims, d.dist = true →
      d.isEmpty = false ∧ Aligned d ∧ 0 ≤ d.len) :
    ∃ o', o.updateDimensionBounds minE = .ok o' ∧ o'.size = o.size ∧ o'.mapping.length = o.size
      ∧ (∀ (rank : Nat) groups groups', o.mapping[rank]? = some groups → o'.mapping[rank]? = some groups' →
          groups'.length = groups.length ∧
          ∀ (g : Nat) dims dims', groups[g]? = some dims → groups'[g]? = some dims' →
            updateGroup o.size minE rank dims = .ok dims')
      ∧ ∀ minE', o'.updateDimensionBounds minE' = .error .valueError := by
  have hg : ∀ rank groups, groups ∈ o.mapping →
      ∃ gs, groups.mapM (updateGroup o.size minE rank) = .ok gs ∧ gs.length = groups.length ∧
        ∀ (g : Nat) dims dims', groups[g]? = some dims → gs[g]? = some dims' →
            updateGroup o.size minE rank dims = .ok dims' := by
    intro rank groups hm
    have h1 : ∀ dims ∈ groups, ∃ r, updateGroup o.size minE rank dims = .ok r := fun dims hd =>
      let ⟨r, hr, _⟩ := C02_group_update o.size minE rank dims (hnames _ hm _ hd) (hwf _ hm _ hd)
      ⟨r, hr⟩
    cases hc : groups.mapM (updateGroup o.size minE rank) with
    | error e =>
      obtain ⟨i, a, hi, ha, _⟩ := (resMapM_error_iff _ _ _).1 hc
      obtain ⟨r, hr⟩ := h1 a (List.mem_of_getElem? hi)
      rw [hr] at ha; cases ha
    | ok gs =>
      obtain ⟨hl, hall⟩ := (resMapM_ok_iff _ _ _).1 hc
      exact ⟨gs, rfl, hl.symm, hall⟩
  unfold OcgDist.updateDimensionBounds
  rw [hnew, if_neg (by decide), if_neg (by omega)]
  cases hc : (List.range o.size).mapM (fun rank =>
      match o.mapping[rank]? with
      | none => (.error .keyError : Res (List (List Dim)))
      | some groups => groups.mapM (updateGroup o.size minE rank)) with
  | error e =>
    obtain ⟨i, a, hi, ha, _⟩ := (resMapM_error_iff _ _ _).1 hc
    obtain ⟨hlt, rfl⟩ := List.getElem?_eq_some_iff.1 hi
    simp only [List.length_range] at hlt
    simp only [List.getElem_range] at ha
    rw [List.getElem?_eq_getElem (by omega)] at ha
    obtain ⟨gs, h, _⟩ := hg i _ (List.getElem_mem (by omega : i < o.mapping.length))
    simp only at ha
    rw [h] at ha; cases ha
  | ok m =>
    obtain ⟨hl, hall⟩ := (resMapM_ok_iff _ _ _).1 hc
    simp only [List.length_range] at hl
    refine ⟨_, rfl, rfl, hl.symm, ?_, fun _ => rfl⟩
    intro rank groups groups' h1 h2
    have h2' : m[rank]? = some groups' := h2
    have hlt : rank < o.size := by rw [← hranks]; exact (List.getElem?_eq_some_iff.1 h1).1
    have := hall rank rank groups' (by simp [hlt]) h2'
    rw [h1] at this
    obtain ⟨gs, h3, h4, h5⟩ := hg rank groups (List.mem_of_getElem? h1)
    simp only at this
    rw [h3] at this
    injection this with this
    subst this
    exact ⟨h4, h5⟩

/-- C02: the update refuses a minimum of no elements. -/
theorem C02_minimum_refused (o : OcgDist) : o.updateDimensionBounds 0 = .error .valueError := by
  unfold OcgDist.updateDimensionBounds
  split
  · rfl
  · rfl

/-- Two ranks with one group of two dimensions. -/
example : let dims : List Dim := [⟨"time", some 3, none, false, false, none, none, none⟩,
      ⟨"x", some 5, none, true, false, none, none, some (.bounds 10 15)⟩]
    (OcgDist.updateDimensionBounds ⟨2, false, [[dims], [dims]]⟩ 2).map (·.mapping)
    = .ok [[[⟨"time", some 3, none, false, false, none, none, none⟩,
             ⟨"x", some 3, some 3, true, false, some (0, 3), some (0, 5), some (.bounds 10 13)⟩]],
           [[⟨"time", some 3, none, false, false, none, none, none⟩,
             ⟨"x", some 2, some 2, true, false, some (3, 5), some (0, 5), some (.bounds 13 15)⟩]]] := by decide

/-- C02: the ranks reported as empty are, in order and each once, those that hold an empty dimension. -/
theorem C02_empty_ranks (perRank : List (List Dim)) :
    (emptyRanks perRank).Pairwise (· < ·) ∧
    ∀ r, r ∈ emptyRanks perRank ↔ ∃ dims, perRank[r]? = some dims ∧ ∃ d ∈ dims, d.isEmpty = true := by
  constructor
  · exact List.Pairwise.filter _ (by rw [List.range_eq_range']; exact List.pairwise_lt_range')
  · intro r
    unfold emptyRanks
    rw [List.mem_filter, List.mem_range]
    constructor
    · rintro ⟨h1, h2⟩
      rw [List.getElem?_eq_getElem h1] at h2
      refine ⟨_, List.getElem?_eq_getElem h1, ?_⟩
      simpa using h2
    · rintro ⟨dims, h1, h2⟩
      refine ⟨(List.getElem?_eq_some_iff.1 h1).1, ?_⟩
      rw [h1]
      simpa using h2

example : emptyRanks [[⟨"x", some 0, some 0, true, true, none, none, none⟩], [⟨"x", some 1, some 1, true, false, none, none, none⟩]]
    = [0] := by decide

/-! ## C03 -/

/-- C03, partial (as C02: the distribution loses no element).  Scattering a variable over the pieces of a distribution and gathering the non-empty parts again gives
the same hyperslabs (values and mask) in the same order, with the source indices of the distributed
dimension and its length restored.  Missing: fewer elements than `min_elements` on several ranks, where it is false
(`C03_lost_element_counterexample`). -/
theorem C03_scatter_gather_partial {α : Type} (v : Var α) (d : Dim) (size minE : Nat) (hsize : 0 < size) (hmin : 1 ≤ minE)
    (hv : v.dim.dist = false) (hd : d.dist = true) (he : d.isEmpty = false) (hal : Aligned d)
    (hlen : d.len = v.values.length) (hpos : 0 < v.values.length)
    (hguard : size = 1 ∨ minE ≤ v.values.length) :
    ∃ dests parts g,
      (List.range size).mapM (fun rank => updateDistributed size minE rank d) = .ok dests
      ∧ scatter v dests = .ok parts ∧ parts.length = size
      ∧ gather (parts.filterMap id) = .ok g
      ∧ g.2 = v.values.map some ∧ sources g.1 = sources d ∧ g.1.len = d.len ∧ g.1.dist = false := by
  generalize hnn : v.values.length = n at *
  generalize hm : effectiveSize size minE n = m
  have hm1 : m ≤ size ∧ m ≤ n ∧ 0 < m := by
    rw [← hm]
    unfold effectiveSize
    have h1 : n / minE ≤ n := Nat.div_le_self _ _
    have h2 : minE ≤ n → 1 ≤ n / minE := fun h => (Nat.le_div_iff_mul_le (by omega)).2 (by omega)
    simp only
    generalize n / minE = q at *
    split <;> split <;> omega
  have hex : ∀ rank, ∃ r, updateDistributed size minE rank d = .ok r ∧ Piece d n m rank r := by
    intro rank; rw [← hm]; exact updateDistributed_ok size minE rank d n hlen hd he hal
  let f : Nat → Dim := fun rank => Classical.choose (hex rank)
  have hf1 : ∀ rank, updateDistributed size minE rank d = .ok (f rank) := fun r => (Classical.choose_spec (hex r)).1
  have hf2 : ∀ rank, Piece d n m rank (f rank) := fun r => (Classical.choose_spec (hex r)).2
  have hminnm : min n m = m := by omega
  have hsplit : List.range size = List.range m ++ List.range' m (size - m) := by
    rw [List.range_eq_range', List.range_eq_range']
    have := List.range'_append (s := 0) (step := 1) (m := m) (n := size - m)
    rw [show m + (size - m) = size by omega] at this
    simpa using this.symm
  obtain ⟨g, g1, g2, g3, g4, g5, g6⟩ := gather_pieces d v.values n m hm1.2.2 hm1.2.1 hlen hnn hal f (fun r _ => hf2 r)
  have hparts : ∃ parts, scatter v ((List.range size).map f) = .ok parts ∧ parts.length = size
      ∧ parts.filterMap id = (List.range m).map fun r =>
        (⟨f r, (v.values.drop (splitPoint n m r)).take (splitPoint n m (r + 1) - splitPoint n m r)⟩ : Var α) := by
    unfold scatter
    rw [hv, if_neg (by simp)]
    by_cases h1 : size > 1
    · rw [if_pos (by simpa using h1)]
      refine ⟨_, rfl, by simp, ?_⟩
      rw [List.filterMap_map, List.filterMap_map, hsplit, List.filterMap_append]
      have e2 : (List.range' m (size - m)).filterMap ((id ∘ scatterTo v) ∘ f) = [] := by
        rw [List.filterMap_eq_nil_iff]
        intro r hr
        rw [List.mem_range'_1] at hr
        simp only [Function.comp, id]
        unfold scatterTo
        rw [if_pos ((hf2 r).empty (by omega)).1]
      rw [e2, List.append_nil]
      rw [← List.filterMap_eq_map']
      apply filterMap_congr_mem
      intro r hr
      have hr' : r < m := by simpa using hr
      obtain ⟨h1, h2, _⟩ := (hf2 r).live (by omega)
      simp only [Function.comp, id]
      unfold scatterTo
      rw [h1, if_neg (by simp), h2]
      have hlt := splitPoint_lt n m r (by omega)
      have hle := splitPoint_le n m r (by omega)
      simp only
      rw [PySlice.get_inside _ _ _ (by omega) (by omega) (by omega)]
      congr 3
      omega
    · have hs1 : size = 1 := by omega
      have hm2 : m = 1 := by omega
      subst hs1
      subst hm2
      rw [if_neg (by simp)]
      refine ⟨_, rfl, by simp, ?_⟩
      have e1 : splitPoint n 1 1 = n := splitPoint_size n 1 (by omega)
      simp [splitPoint_zero, e1]
      rw [← hnn, List.take_length]
  obtain ⟨parts, p1, p2, p3⟩ := hparts
  exact ⟨_, parts, g, mapM_ok _ _ _ (fun r _ => hf1 r), p1, p2, by rw [p3]; exact g1, g2, g3, by rw [g4, hlen], g5⟩

/-- Five values on three ranks (two receive data), with bounds source indices. -/
example : ∃ dests parts g,
    (List.range 3).mapM (fun rank => updateDistributed 3 2 rank
      ⟨"x", some 5, none, true, false, none, none, some (.bounds 7 12)⟩) = .ok dests
    ∧ scatter ⟨⟨"x", some 5, none, false, false, none, none, none⟩, [10, 20, 30, 40, 50]⟩ dests = .ok parts
    ∧ parts.length = 3 ∧ gather (parts.filterMap id) = .ok g
    ∧ g.2 = [some 10, some 20, some 30, some 40, some 50]
    ∧ sources g.1 = [7, 8, 9, 10, 11] ∧ g.1.len = 5 ∧ g.1.dist = false :=
  C03_scatter_gather_partial ⟨⟨"x", some 5, none, false, false, none, none, none⟩, [10, 20, 30, 40, 50]⟩
    ⟨"x", some 5, none, true, false, none, none, some (.bounds 7 12)⟩ 3 2 (by decide) (by decide) rfl rfl rfl
    (by decide) (by decide) (by decide) (by decide)

/-- C03 is false of the code for a variable with one element on two ranks (and the default `min_elements=2`): no
rank is sent anything. -/
theorem C03_lost_element_counterexample :
    ∃ (v : Var Nat) (d : Dim) (dests : List Dim), v.values = [7] ∧ d.len = 1 ∧ d.dist = true ∧ Aligned d ∧
      (List.range 2).mapM (fun rank => updateDistributed 2 2 rank d) = .ok dests ∧
      scatter v dests = .ok [none, none] :=
  ⟨⟨⟨"x", some 1, none, false, false, none, none, none⟩, [7]⟩,
    ⟨"x", some 1, none, true, false, none, none, some (.bounds 0 1)⟩, _, rfl, rfl, rfl, by decide, rfl, rfl⟩

/-- C03, array gathering: horizontally gathering per-rank arrays (some possibly empty) is concatenation. -/
theorem C03_hgather {α : Type} (zero : α) (es : List (List α)) : hgather zero es = .ok es.flatten :=
  hgather_eq zero es

example : hgather 0 [[1, 2], [], [3]] = .ok [1, 2, 3] := by decide

/-- C03, gathering dictionaries: every key is found with the value given by the last dictionary that has it. -/
theorem C03_dgather {κ ν : Type} (elements : List (κ → Option ν)) (hne : elements ≠ []) (k : κ) :
    dgather elements k = (elements.reverse.filterMap (fun d => d k)).head? := by
  have key : ∀ (l : List (κ → Option ν)) (g : κ → Option ν),
      l.foldl (fun grow d k => (d k).or (grow k)) g k = ((l.reverse.filterMap (fun d => d k)).head?).or (g k) := by
    intro l
    induction l with
    | nil => intro g; simp
    | cons d l ih =>
      intro g
      rw [List.foldl_cons, ih, List.reverse_cons, List.filterMap_append, List.head?_append]
      cases (List.filterMap (fun d => d k) l.reverse).head? with
      | some x => simp
      | none =>
        cases hd : d k <;> simp [List.filterMap_cons, hd]
  cases elements with
  | nil => exact absurd rfl hne
  | cons d l =>
    unfold dgather
    rw [List.tail_cons, List.headD_cons, key, List.reverse_cons, List.filterMap_append, List.head?_append]
    cases hd : d k <;> simp [List.filterMap_cons, hd]

example : dgather [fun k : Nat => if k = 1 then some "a" else none, fun k => if k < 2 then some "b" else none] 1 = some "b" := by decide

/-! ## C04 -/

/-- C04.  For integer start/stop the translation never fails, and the local positions it selects are exactly the
positions `i` of the process whose global index `lower + i` lies in `[start, stop)`. -/
theorem C04_global_to_local (start stop lower upper : Int) :
    ∃ r, globalToLocal (some start) (some stop) lower upper = .ok r
      ∧ (∀ i : Int, (∃ a b, r = some (a, b) ∧ a ≤ i ∧ i < b)
          ↔ (0 ≤ i ∧ i < upper - lower ∧ start ≤ lower + i ∧ lower + i < stop))
      ∧ (∀ a b, r = some (a, b) → 0 ≤ a ∧ b ≤ upper - lower)
      ∧ (r = none ↔ upper ≤ start ∨ stop ≤ lower) := by
  unfold globalToLocal
  simp only
  by_cases h1 : start ≥ upper
  · rw [if_pos h1]
    refine ⟨none, rfl, ?_, by simp, by simp; omega⟩
    intro i
    constructor
    · rintro ⟨a, b, h, _⟩; cases h
    · omega
  · rw [if_neg h1]
    by_cases h2 : stop ≤ lower
    · rw [if_pos h2]
      refine ⟨none, by split <;> simp_all, ?_, by simp, by simp; omega⟩
      intro i
      constructor
      · rintro ⟨a, b, h, _⟩; cases h
      · omega
    · rw [if_neg h2]
      have e1 : (if start < lower then some lower else some start) = some (max start lower) := by
        split <;> (congr 1; omega)
      have e2 : (if upper < stop then some upper else some stop) = some (min stop upper) := by
        split <;> (congr 1; omega)
      rw [e1, e2]
      refine ⟨_, rfl, ?_, ?_, by simp; omega⟩
      · intro i
        simp only [Option.some.injEq, Prod.mk.injEq]
        constructor
        · rintro ⟨a, b, ⟨rfl, rfl⟩, h3, h4⟩; omega
        · intro h; exact ⟨_, _, ⟨rfl, rfl⟩, by omega, by omega⟩
      · intro a b h
        simp only [Option.some.injEq, Prod.mk.injEq] at h
        omega

/-- C04: an open-ended request (`None`) is rejected. -/
theorem C04_none_rejected (start stop : Option Int) (lower upper : Int) (h : start = none ∨ stop = none) :
    globalToLocal start stop lower upper = .error .valueError := by
  unfold globalToLocal
  rcases h with rfl | rfl
  · rfl
  · cases start <;> rfl

example : globalToLocal (some 3) (some 9) 5 8 = .ok (some (0, 3))
    ∧ globalToLocal (some 3) (some 6) 5 8 = .ok (some (0, 1)) ∧ globalToLocal (some 8) (some 9) 5 8 = .ok none := by
  decide

/-! ## C05 -/

/-- C05.  Slicing `start:stop` on all ranks of a distributed dimension: nobody raises, ranks outside the range
become empty, the local bounds of the remaining ranks are consecutive from zero, every remaining rank knows
the new global length, and the source indices of the pieces concatenate to the slice of the concatenated
source indices. -/
theorem C05_distributed_slice (ds : List Dim) (h : Distributed ds) (start stop : Int) (h0 : 0 ≤ start)
    (hss : start ≤ stop) :
    ∃ rs, distSlice ds start stop = .ok rs ∧ rs.length = ds.length
      ∧ Consecutive 0 rs
      ∧ (∀ r ∈ rs, r.isEmpty = false → r.boundsGlobal = (0, (rs.map (·.len)).sum))
      ∧ (rs.map (·.len)).sum = ((PySlice.mk (some start) (some stop)).get (intRange 0 (ds.map (·.len)).sum)).length
      ∧ ((∀ d ∈ ds, d.srcIdx ≠ none) →
          rs.flatMap sources = (PySlice.mk (some start) (some stop)).get (ds.flatMap sources))
      ∧ (∀ r ∈ rs, r.isEmpty = true → r.len = 0) := by
  obtain ⟨rs, e1, e2⟩ := mapM_distSliceLocal start stop hss ds 0 h.live h.consecutive
  have hn := normalise_spec (((rs.map fun r => (r, r.len)).map (·.2)).foldl (· + ·) 0) start stop e2 0
  have hpos : ∀ d ∈ ds, 0 < d.len := fun d hd => (h.live d hd).2.2.1
  have htot := e2.total hpos hss
  obtain ⟨i1, i2, i3, i4⟩ := hn
  have hmap1 : (rs.map fun r => (r, r.len)).map (·.1) = rs := by rw [List.map_map]; simp [Function.comp_def]
  have hmap2 : ((rs.map fun r => (r, r.len)).map (·.2)) = rs.map (·.len) := by rw [List.map_map]; rfl
  have hlens : (distSliceNormalise (((rs.map fun r => (r, r.len)).map (·.2)).foldl (· + ·) 0) rs 0).map (·.len)
      = rs.map (·.len) := by
    have := congrArg (List.map (fun t : String × Int × Bool × Option SrcIdx => t.2.1)) i3
    simpa [List.map_map, Function.comp_def] using this
  have hempt : (distSliceNormalise (((rs.map fun r => (r, r.len)).map (·.2)).foldl (· + ·) 0) rs 0).map (fun d => (d.len, d.isEmpty))
      = rs.map (fun d => (d.len, d.isEmpty)) := by
    have := congrArg (List.map (fun t : String × Int × Bool × Option SrcIdx => (t.2.1, t.2.2.1))) i3
    simpa [List.map_map, Function.comp_def] using this
  have hsum := sum_len_nonneg ds hpos
  have hwin : ∀ (xs : List Int), windowOf start stop 0 xs = (PySlice.mk (some start) (some stop)).get xs := by
    intro xs
    unfold windowOf PySlice.get PySlice.lo PySlice.hi PySlice.clip
    simp only
    rw [if_neg (by omega), if_neg (by omega)]
    apply List.ext_getElem?
    intro j
    rw [List.getElem?_take, List.getElem?_take, List.getElem?_drop, List.getElem?_drop]
    by_cases hj : (start - 0).toNat + j < xs.length
    · have e : (start - 0).toNat = min start.toNat xs.length := by omega
      rw [← e]
      have : (j < (stop - 0).toNat - (start - 0).toNat) ↔ (j < min stop.toNat xs.length - (start - 0).toNat) := by omega
      by_cases hc : j < (stop - 0).toNat - (start - 0).toNat
      · rw [if_pos hc, if_pos (this.1 hc)]
      · rw [if_neg hc, if_neg (fun hh => hc (this.2 hh))]
    · rw [List.getElem?_eq_none (by omega)]
      have : min start.toNat xs.length + j ≥ xs.length ∨ ¬ j < min stop.toNat xs.length - min start.toNat xs.length := by omega
      rcases this with h | h
      · rw [List.getElem?_eq_none h]; simp
      · rw [if_neg h]; simp
  refine ⟨_, ?_, ?_, i1, ?_, ?_, ?_, ?_⟩
  · unfold distSlice
    rw [e1]
    simp only [bind, Except.bind, hmap1]
  · have := congrArg List.length hlens
    have hl := e2.length_eq
    simpa [hl] using this
  · intro r hr he
    rw [i4 r hr he, hlens, hmap2, foldl_add_eq_sum]; simp
  · rw [hlens, htot]
    unfold PySlice.get PySlice.lo PySlice.hi PySlice.clip
    simp only
    rw [if_neg (by omega), if_neg (by omega), List.length_take, List.length_drop, length_intRange]
    omega
  · intro hs
    rw [i2, e2.sources_eq (fun d hd => ⟨hs d hd, (h.live d hd).2.2.2, (h.live d hd).2.2.1⟩), hwin]
  · intro r hr he
    have hmem : (r.len, r.isEmpty) ∈ rs.map (fun d => (d.len, d.isEmpty)) := by
      rw [← hempt]; exact List.mem_map.2 ⟨r, hr, rfl⟩
    obtain ⟨x, hx, hxe⟩ := List.mem_map.1 hmem
    simp only [Prod.mk.injEq] at hxe
    rw [← hxe.1]
    rw [← hxe.2] at he
    exact e2.empty_len x hx he

/-- A dimension of eight elements over three ranks. -/
example : Distributed
    [⟨"x", some 3, some 3, true, false, some (0, 3), some (0, 8), some (.bounds 10 13)⟩,
     ⟨"x", some 3, some 3, true, false, some (3, 6), some (0, 8), some (.bounds 13 16)⟩,
     ⟨"x", some 2, some 2, true, false, some (6, 8), some (0, 8), some (.bounds 16 18)⟩] := by
  refine ⟨?_, ?_⟩
  · intro d hd
    simp only [List.mem_cons, List.not_mem_nil, or_false] at hd
    rcases hd with rfl | rfl | rfl <;> exact ⟨rfl, rfl, by decide, by decide⟩
  · simp [Consecutive, Dim.boundsLocal, Dim.len]

/-- The same dimension sliced `[4:7]`: the first rank is empty, the others renumbered from zero. -/
example : distSlice
    [⟨"x", some 3, some 3, true, false, some (0, 3), some (0, 8), some (.bounds 10 13)⟩,
     ⟨"x", some 3, some 3, true, false, some (3, 6), some (0, 8), some (.bounds 13 16)⟩,
     ⟨"x", some 2, some 2, true, false, some (6, 8), some (0, 8), some (.bounds 16 18)⟩] 4 7
    = .ok
    [⟨"x", some 0, some 0, true, true, some (0, 0), some (0, 0), none⟩,
     ⟨"x", some 2, some 2, true, false, some (0, 2), some (0, 3), some (.bounds 14 16)⟩,
     ⟨"x", some 1, some 1, true, false, some (2, 3), some (0, 3), some (.bounds 16 17)⟩] := by decide

/-- Outside C05's guard: with negative bounds the parallel slice is not the serial one.  `dim[-3:-1]` of a
two-rank dimension of four elements selects two elements serially and none in parallel. -/
theorem C05_negative_slice_counterexample :
    ∃ (ds : List Dim) (start stop : Int), Distributed ds
      ∧ ((PySlice.mk (some start) (some stop)).get (ds.flatMap sources)).length = 2
      ∧ ∃ rs, distSlice ds start stop = .ok rs ∧ rs.flatMap sources = [] := by
  refine ⟨[⟨"x", some 2, some 2, true, false, some (0, 2), some (0, 4), some (.bounds 0 2)⟩,
     ⟨"x", some 2, some 2, true, false, some (2, 4), some (0, 4), some (.bounds 2 4)⟩], -3, -1, ?_, by decide,
     _, rfl, by decide⟩
  refine ⟨?_, ?_⟩
  · intro d hd
    simp only [List.mem_cons, List.not_mem_nil, or_false] at hd
    rcases hd with rfl | rfl <;> exact ⟨rfl, rfl, by decide, by decide⟩
  · simp [Consecutive, Dim.boundsLocal, Dim.len]

end Ocgis.Props
