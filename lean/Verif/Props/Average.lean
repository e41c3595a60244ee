import Verif.Proofs.Average
/-!
# C86: the union of geometries and the spatial average of data
-/
namespace Ocgis.Props
open Ocgis Ocgis.Average

/-- A library for examples: a geometry is a list of unit squares, by number. -/
def squares : Shapely (List Nat) := ⟨fun g => (g.eraseDups.length : Nat), fun g => [g], List.flatten⟩

theorem squares_lawful : Lawful squares (fun g p => p ∈ g) where
  area_nonneg := fun g => by simp [squares]
  union := fun l p => by simp [squares]
  parts := fun g p => by simp [squares]

/-- Two geometries along one dimension: three squares and one square. -/
def pair : GVar (List Nat) := ⟨[⟨"g", 2⟩], fun i => if i = [0] then [1, 2, 3] else [4], fun _ => false⟩

/-- The same with the first one masked. -/
def pairMasked : GVar (List Nat) := { pair with masked := fun i => i = [0] }

/-- Two times, values `10 t + g`. -/
def tas : Var := ⟨"tas", [⟨"time", 2⟩, ⟨"g", 2⟩], ⟨[2, 2], fun i => (10 * i.getD 0 0 + i.getD 1 0 : Nat)⟩, none⟩

/-- One value for each geometry. -/
def oro : Var := ⟨"oro", [⟨"g", 2⟩], ⟨[2], fun i => (i.getD 0 0 : Nat)⟩, none⟩

/-- The new dimension. -/
def udim : Dim := ⟨"ocgis_geom_union", 1⟩

theorem fits_tas : Fits pair tas where
  geom_names := by decide
  names := by decide
  same := by decide
  shape := rfl

theorem fits_oro : Fits pair oro where
  geom_names := by decide
  names := by decide
  same := by decide
  shape := rfl

/-! ### The union -/

/-- **C86.**  On one process, the unioned geometry has exactly the points of the geometries that are not masked, has the new
dimension only, and is not masked. -/
theorem C86_union {G P : Type} {S : Shapely G} {inside : G → P → Prop} (L : Lawful S inside) {g : GVar G} {vs : List Var}
    {u : Dim} {toWeight : List String} {x : GVar G} {out : List Var} (hnd : (g.dims.map (·.name)).Nodup)
    (h : getUnioned S g vs u toWeight = .ok (x, out)) :
    x.dims = [u] ∧ ∀ i, x.masked i = false ∧
      ∀ p, inside (x.geom i) p ↔ ∃ c ∈ places g.dims, g.masked (spot g.dims c) = false ∧ inside (g.geom (spot g.dims c)) p := by
  obtain ⟨rfl, _⟩ := getUnioned_get h
  refine ⟨newDims_geom g u, ?_⟩
  intro i
  exact ⟨rfl, fun p => union_points L g hnd _ p⟩

example : (getUnioned squares pairMasked [oro, tas] udim ["tas", "oro"]).toOption.map (fun r => r.1.geom [0]) = some [4] := by
  decide +kernel

/-- **C86.**  On several processes, the unioned geometry of the root has exactly the points of the geometries that are not
masked, of all processes. -/
theorem C86_union_ranks {G P : Type} {S : Shapely G} {inside : G → P → Prop} (L : Lawful S inside) {rs : List (Rank G)}
    {u : Dim} {toWeight : List String} {x : G} {out : List Var} (hnd : ∀ r ∈ rs, (r.geoms.dims.map (·.name)).Nodup)
    (h : getUnionedRanks S rs u toWeight = .ok (x, out)) (p : P) :
    inside x p ↔ ∃ r ∈ rs, ∃ c ∈ places r.geoms.dims,
      r.geoms.masked (spot r.geoms.dims c) = false ∧ inside (r.geoms.geom (spot r.geoms.dims c)) p := by
  unfold getUnionedRanks at h
  cases hl : rs.mapM fun r => getUnioned S r.geoms r.vars u toWeight with
  | error e => rw [hl] at h; cases h
  | ok ls =>
    rw [hl] at h
    simp only [bind, Except.bind] at h
    obtain ⟨hlen, hget⟩ := mapM_all hl
    match ls, hlen, hget, h with
    | [], _, _, h => cases h
    | [l], hlen, hget, h0 =>
      simp only [Except.ok.injEq, Prod.mk.injEq] at h0
      obtain ⟨r, rfl⟩ := List.length_eq_one_iff.1 (hlen.symm.trans rfl)
      obtain ⟨y, hy, hr⟩ := hget 0 r rfl
      simp only [List.getElem?_cons_zero, Option.some.injEq] at hy
      subst hy
      obtain ⟨hx, _⟩ := getUnioned_get (x := l.1) (out := l.2) hr
      rw [← h0.1, hx]
      have := union_points L r.geoms (hnd r (List.mem_cons_self ..)) [0] p
      constructor
      · intro hp
        exact ⟨r, List.mem_cons_self .., this.1 hp⟩
      · rintro ⟨r', hr', hc⟩
        rw [List.mem_singleton] at hr'
        subst hr'
        exact this.2 hc
    | l :: l2 :: ls, _, _, h =>
      simp only [Except.ok.injEq, Prod.mk.injEq] at h
      rw [← h.1, allUnion, L.union]
      constructor
      · rintro ⟨q, hq, hp⟩
        obtain ⟨r, hr, rfl⟩ := List.mem_map.1 hq
        exact ⟨r, hr, (union_points L r.geoms (hnd r hr) [0] p).1 hp⟩
      · rintro ⟨r, hr, hc⟩
        exact ⟨_, List.mem_map.2 ⟨r, hr, rfl⟩, (union_points L r.geoms (hnd r hr) [0] p).2 hc⟩

/-- A geometry variable with two dimensions. -/
def table : GVar (List Nat) := ⟨[⟨"a", 2⟩, ⟨"b", 2⟩], fun i => [10 * i.getD 0 0 + i.getD 1 0], fun _ => false⟩

/-- **C86 fails** for a union over some of the dimensions: the geometry for each index along the dimensions that stay is
that of the first index. -/
theorem C86_union_dimensions_counterexample :
    (unioned squares table ["b"] udim).dims = [⟨"a", 2⟩, udim] ∧
      (unioned squares table ["b"] udim).geom [1, 0] = [0, 1] ∧
      table.geom [1, 0] = [10] ∧ table.geom [1, 1] = [11] := by
  decide +kernel

/-! ### The spatial average -/

/-- **C86, partial.**  A named variable that has other dimensions than those of the geometries has, at each index along
these, the mean of its values that are not masked, at geometries that are not masked, weighted as documented: by area, and
by one for a geometry without area.  The result is not masked.  Missing: an index where there is no such value (see
`C86_missing_counterexample`). -/
theorem C86_mean_partial {G : Type} {S : Shapely G} (hS : ∀ x, 0 ≤ S.area x) {g : GVar G} {vs : List Var} {u : Dim}
    {toWeight : List String} {x : GVar G} {out : List Var} (h : getUnioned S g vs u toWeight = .ok (x, out))
    {k : Nat} {v : Var} (hk : vs[k]? = some v) (hf : Fits g v) (hn : v.name ∈ toWeight) (ho : others g v ≠ []) :
    ∃ r, out[k]? = some r ∧ r.name = v.name ∧ r.dims = others g v ++ [u] ∧ r.value.shape = r.dims.map (·.size) ∧
      ∀ t, Within (others g v) t → valid g v t ≠ [] →
        element r (spot (others g v) t ++ [0]) = some (wmean (weighted S g v t)) := by
  obtain ⟨_, _, hget⟩ := getUnioned_get h
  obtain ⟨r, hr, _, _, h3⟩ := hget k v hk
  obtain ⟨e1, e2, e3, e4, e5⟩ := averageIter_spec hS hf (h3 hn ho)
  refine ⟨r, hr, e1, e2, e3, ?_⟩
  intro t ht hv
  unfold element
  rw [e4]
  simp only
  rw [e5 t ht, if_neg (by simpa using hv)]

example : (getUnioned squares pair [oro, tas] udim ["tas", "oro"]).toOption.map
    (fun r => r.2.map fun v => (v.name, v.dims, (indices v.value.shape).map (element v))) =
      some [("oro", [udim], [some (1 / 4)]),
        ("tas", [⟨"time", 2⟩, udim], [some (1 / 4), some (41 / 4)])] := by
  decide +kernel
example : others pair tas ≠ [] ∧ valid pair tas (fun _ => 1) ≠ [] := by
  constructor
  · decide
  · exact List.ne_nil_of_length_pos (by decide +kernel)

/-- **C86, partial.**  A named variable that has the dimensions of the geometries, in this order, has one element: the mean
of its values that are not masked, at geometries that are not masked, weighted as documented.  It is masked if there is no
such value.  Missing: the same dimensions in another order (see `C86_order_counterexample`). -/
theorem C86_mean_same_partial {G : Type} {S : Shapely G} (hS : ∀ x, 0 ≤ S.area x) {g : GVar G} {vs : List Var} {u : Dim}
    {toWeight : List String} {x : GVar G} {out : List Var} (h : getUnioned S g vs u toWeight = .ok (x, out))
    {k : Nat} {v : Var} (hk : vs[k]? = some v) (hf : Fits g v) (hn : v.name ∈ toWeight) (hd : v.dims = g.dims)
    (t : String → Nat) :
    ∃ r, out[k]? = some r ∧ r.name = v.name ∧ r.dims = [u] ∧ r.value.shape = r.dims.map (·.size) ∧
      ∀ i, element r i = if valid g v t = [] then none else some (wmean (weighted S g v t)) := by
  obtain ⟨_, _, hget⟩ := getUnioned_get h
  obtain ⟨r, hr, _, h2, _⟩ := hget k v hk
  have ho : others g v = [] := by
    unfold others
    rw [hd, List.filter_eq_nil_iff]
    intro d hd
    simpa using ⟨d, hd, rfl⟩
  obtain ⟨nd, hnd, hfl⟩ := h2 hn ho
  obtain ⟨e0, e1, e2, e3, e4⟩ := averageFlatVar_spec hS hf hd hfl t
  have := sizes_one hnd e0
  subst this
  refine ⟨r, hr, e1, e2, e3, ?_⟩
  intro i
  rw [e4 i]
  cases hv : valid g v t <;> simp

example : (getUnioned squares pairMasked [oro] udim ["oro"]).toOption.map
    (fun r => r.2.map fun v => (indices v.value.shape).map (element v)) = some [[some 1]] := by
  decide +kernel

/-- **C86.**  Where every geometry that counts has an area, the weights are the areas. -/
theorem C86_by_area {G : Type} (S : Shapely G) (g : GVar G) (v : Var) (t : String → Nat)
    (h : ∀ c ∈ valid g v t, S.area (g.geom (spot g.dims c)) ≠ 0) : weighted S g v t = weightedByArea S g v t := by
  unfold weighted weightedByArea
  apply List.map_congr_left
  intro c hc
  simp only [weightOf, h c hc, ↓reduceIte]

example : weighted squares pair tas (fun _ => 1) = weightedByArea squares pair tas (fun _ => 1) ∧
    wmean (weightedByArea squares pair tas (fun _ => 1)) = 41 / 4 := by
  decide +kernel

/-- **C86.**  The mean lies between bounds of the values that count. -/
theorem C86_between {G : Type} {S : Shapely G} (hS : ∀ x, 0 ≤ S.area x) (g : GVar G) (v : Var) (t : String → Nat)
    (hne : valid g v t ≠ []) (lo hi : Rat)
    (h : ∀ c ∈ valid g v t, lo ≤ v.value.elem (spot v.dims (along g.dims c t)) ∧
      v.value.elem (spot v.dims (along g.dims c t)) ≤ hi) :
    lo ≤ wmean (weighted S g v t) ∧ wmean (weighted S g v t) ≤ hi := by
  apply wmean_between
  · simpa [weighted] using hne
  · intro a ha
    obtain ⟨c, hc, rfl⟩ := List.mem_map.1 ha
    exact ⟨weightOf_pos hS _, h c hc⟩

example : (0 : Rat) ≤ wmean (weighted squares pair oro fun _ => 0) ∧ wmean (weighted squares pair oro fun _ => 0) ≤ 1 := by
  apply C86_between squares_lawful.area_nonneg
  · exact List.ne_nil_of_length_pos (by decide +kernel)
  · decide +kernel

/-- **C86.**  Variables that are not named are left as they are, and no variable is lost. -/
theorem C86_untouched {G : Type} {S : Shapely G} {g : GVar G} {vs : List Var} {u : Dim} {toWeight : List String} {x : GVar G}
    {out : List Var} (h : getUnioned S g vs u toWeight = .ok (x, out)) :
    out.length = vs.length ∧ ∀ (k : Nat) (v : Var), vs[k]? = some v → v.name ∉ toWeight → out[k]? = some v := by
  obtain ⟨_, hlen, hget⟩ := getUnioned_get h
  refine ⟨hlen, ?_⟩
  intro k v hk hn
  obtain ⟨r, hr, h1, _⟩ := hget k v hk
  rw [hr, h1 hn]

example : (getUnioned squares pair [oro, tas] udim ["tas"]).toOption.map (fun r => r.2.map (·.dims)) =
    some [[⟨"g", 2⟩], [⟨"time", 2⟩, udim]] := by
  decide +kernel

/-- **C86.**  The request succeeds exactly if each named variable with other dimensions has all dimensions of the
geometries, in the order of the geometries, and each named variable without other dimensions comes before these.  The
claim is that it always does. -/
theorem C86_succeeds {G : Type} {S : Shapely G} (hS : ∀ x, 0 ≤ S.area x) {g : GVar G} (vs : List Var) {u : Dim}
    (hu : u.size = 1) (toWeight : List String) (hpos : ∀ d ∈ g.dims, 0 < d.size) (hf : ∀ v ∈ vs, Fits g v) :
    (∃ r, getUnioned S g vs u toWeight = .ok r) ↔
      (∀ v ∈ vs, v.name ∈ toWeight → others g v ≠ [] →
        (v.dims.map (·.name)).filter (fun n => decide (n ∈ g.dims.map (·.name))) = g.dims.map (·.name)) ∧
      (∀ (k : Nat) (v : Var), vs[k]? = some v → v.name ∈ toWeight → others g v = [] →
        ∀ (j : Nat) (w : Var), j < k → vs[j]? = some w → w.name ∈ toWeight → others g w = []) := by
  rw [getUnioned_ok_iff, averageAll_ok_iff hS hu hpos vs hf [u] true (fun _ => rfl) (fun h => by cases h),
    averageable_iff]
  have hnames : ∀ v : Var, (v.dims.map (·.name)).filter (fun n => decide (n ∈ g.dims.map (·.name))) =
      names (spatialDims g.dims v.dims) := by
    intro v
    unfold names spatialDims
    rw [List.filter_map]
    congr 1
    apply List.filter_congr
    intro d _
    simp [names]
  simp only [hnames, true_and]
  rfl

example : (∃ r, getUnioned squares pair [oro, tas] udim ["tas", "oro"] = .ok r) := by
  have : (getUnioned squares pair [oro, tas] udim ["tas", "oro"]).toOption.isSome = true := by decide +kernel
  cases h : getUnioned squares pair [oro, tas] udim ["tas", "oro"] with
  | error e => rw [h] at this; cases this
  | ok r => exact ⟨r, rfl⟩

/-- **C86 fails**: the same two variables in the other order are refused, because the second one is given the dimensions of
the first. -/
theorem C86_sequence_counterexample :
    (getUnioned squares pair [tas, oro] udim ["tas", "oro"]).toOption.isNone = true ∧
      (getUnioned squares pair [oro, tas] udim ["tas", "oro"]).toOption.isSome = true := by
  decide +kernel

/-- Data with a missing first time. -/
def tasMissing : Var := { tas with mask := some fun i => i.getD 0 0 = 0 }

/-- **C86 fails**: at a time at which all data are missing, the average is the number zero, and not missing. -/
theorem C86_missing_counterexample :
    valid pair tasMissing (fun _ => 0) = [] ∧
      (getUnioned squares pair [tasMissing] udim ["tas"]).toOption.map
        (fun r => r.2.map fun v => (indices v.value.shape).map (element v)) = some [[some 0, some (41 / 4)]] := by
  constructor
  · rw [← List.length_eq_zero_iff]; decide +kernel
  · decide +kernel

/-- A grid of cells in two dimensions, one of them large. -/
def grid : GVar (List Nat) :=
  ⟨[⟨"y", 2⟩, ⟨"x", 2⟩], fun i => if i = [0, 1] then [1, 2, 3] else [10 + 2 * i.getD 0 0 + i.getD 1 0], fun _ => false⟩

/-- Data on the cells, with the dimensions in the other order, zero but in the large cell. -/
def turned : Var := ⟨"t", [⟨"x", 2⟩, ⟨"y", 2⟩], ⟨[2, 2], fun i => if i = [1, 0] then 1 else 0⟩, none⟩

/-- The same at two times. -/
def turnedTime : Var := ⟨"t", [⟨"time", 1⟩, ⟨"x", 2⟩, ⟨"y", 2⟩], ⟨[1, 2, 2], fun i => if i = [0, 1, 0] then 1 else 0⟩, none⟩

/-- **C86 fails** for a variable with the dimensions of the geometries in another order: its values get the weights of
other cells.  With a further dimension the request is refused. -/
theorem C86_order_counterexample :
    wmean (weighted squares grid turned fun _ => 0) = 3 / 6 ∧
      (getUnioned squares grid [turned] udim ["t"]).toOption.map (fun r => r.2.map fun v => v.value.elem [0]) =
        some [1 / 6] ∧
      (getUnioned squares grid [turnedTime] udim ["t"]).toOption.isNone = true := by
  decide +kernel

/-- A cell of which a quarter of an area unit remains, and one of which only the edge. -/
def edge : GVar Rat := ⟨[⟨"g", 2⟩], fun i => if i = [0] then 1 / 4 else 0, fun _ => false⟩

/-- Geometries given by their areas. -/
def areas : Shapely Rat := ⟨fun g => if 0 ≤ g then g else 0, fun g => [g], fun l => l.sum⟩

/-- **C86 fails** for the mean by area: a geometry without area among others is given the weight one, which may be more
than theirs. -/
theorem C86_area_counterexample :
    wmean (weightedByArea areas edge oro fun _ => 0) = 0 ∧ wmean (weighted areas edge oro fun _ => 0) = 4 / 5 ∧
      (getUnioned areas edge [oro] udim ["oro"]).toOption.map (fun r => r.2.map fun v => v.value.elem [0]) =
        some [4 / 5] := by
  decide +kernel

/-! ### Several processes -/

/-- **C86, partial.**  On several processes, the average of a named variable lies between bounds of all the values that
count, on all processes, if each process has one; so where these are equal, it is their common value.  Missing: that it is
the mean with the weights of all geometries (see the counterexamples below). -/
theorem C86_ranks_between_partial {G : Type} {S : Shapely G} (hS : ∀ x, 0 ≤ S.area x) {rs : List (Rank G)} {u : Dim}
    {toWeight : List String} {x : G} {out : List Var} (h : getUnionedRanks S rs u toWeight = .ok (x, out))
    (hpos : ∀ r ∈ rs, ∀ d ∈ r.geoms.dims, 0 < d.size) {n k : Nat} (hn : ∀ r ∈ rs, r.vars.length = n) (hk : k < n)
    {it : List Dim} (hit : it ≠ []) {t : String → Nat} (ht : Within it t) (lo hi : Rat)
    (hv : ∀ r ∈ rs, ∀ v, r.vars[k]? = some v → Fits r.geoms v ∧ v.name ∈ toWeight ∧ others r.geoms v = it ∧
      valid r.geoms v t ≠ [] ∧
      ∀ c ∈ valid r.geoms v t, lo ≤ v.value.elem (spot v.dims (along r.geoms.dims c t)) ∧
        v.value.elem (spot v.dims (along r.geoms.dims c t)) ≤ hi) :
    ∃ r, out[k]? = some r ∧ r.dims = it ++ [u] ∧ r.mask = none ∧
      lo ≤ r.value.elem (spot it t ++ [0]) ∧ r.value.elem (spot it t ++ [0]) ≤ hi := by
  -- what each process computes
  have hlocal : ∀ r ∈ rs, ∀ l, getUnioned S r.geoms r.vars u toWeight = .ok l →
      l.2.length = n ∧ ∃ o, l.2[k]? = some o ∧ o.name ∈ toWeight ∧ o.dims = it ++ [u] ∧ o.mask = none ∧
        lo ≤ o.value.elem (spot it t ++ [0]) ∧ o.value.elem (spot it t ++ [0]) ≤ hi := by
    intro r hr l hl
    obtain ⟨_, hlen, hget⟩ := getUnioned_get (x := l.1) (out := l.2) hl
    have hkr : k < r.vars.length := by rw [hn r hr]; exact hk
    obtain ⟨hf, hnm, ho, hne, hb⟩ := hv r hr r.vars[k] (List.getElem?_eq_getElem hkr)
    obtain ⟨o, hoo, _, _, h3⟩ := hget k r.vars[k] (List.getElem?_eq_getElem hkr)
    obtain ⟨e1, e2, _, e4, e5⟩ := averageIter_spec hS hf (h3 hnm (by rw [ho]; exact hit))
    refine ⟨by rw [hlen, hn r hr], o, hoo, by rw [e1]; exact hnm, by rw [e2, ho], e4, ?_⟩
    have := e5 t (by rw [ho]; exact ht)
    rw [ho, if_neg (by simpa using hne)] at this
    rw [this]
    exact C86_between hS r.geoms _ t hne lo hi hb
  unfold getUnionedRanks at h
  cases hl : rs.mapM fun r => getUnioned S r.geoms r.vars u toWeight with
  | error e => rw [hl] at h; cases h
  | ok ls =>
    rw [hl] at h
    simp only [bind, Except.bind] at h
    obtain ⟨hlen, hget⟩ := mapM_all hl
    have hls : ∀ l ∈ ls, l.2.length = n ∧ ∃ o, l.2[k]? = some o ∧ o.name ∈ toWeight ∧ o.dims = it ++ [u] ∧
        o.mask = none ∧ lo ≤ o.value.elem (spot it t ++ [0]) ∧ o.value.elem (spot it t ++ [0]) ≤ hi := by
      intro l hl'
      obtain ⟨j, hj, hje⟩ := List.getElem_of_mem hl'
      have hjr : j < rs.length := by omega
      obtain ⟨y, hy, hyr⟩ := hget j rs[j] (List.getElem?_eq_getElem hjr)
      rw [List.getElem?_eq_getElem hj, hje, Option.some.injEq] at hy
      subst hy
      exact hlocal rs[j] (List.getElem_mem _) l hyr
    match ls, hlen, hls, h with
    | [], _, _, h => cases h
    | [l], _, hls, h =>
      simp only [Except.ok.injEq, Prod.mk.injEq] at h
      obtain ⟨_, o, h1, _, h2⟩ := hls l (List.mem_cons_self ..)
      exact ⟨o, by rw [← h.2]; exact h1, h2⟩
    | l :: l2 :: ls, hlen, hls, h =>
      simp only [Except.ok.injEq, Prod.mk.injEq] at h
      obtain ⟨hll, o, ho, honm, hod, hom, _⟩ := hls l (List.mem_cons_self ..)
      obtain ⟨hwl, hwp⟩ := rankWeights_pos hS rs hpos
      have hcl : ∀ y ∈ (l :: l2 :: ls).map (·.2), y.length = l.2.length := by
        intro y hy
        obtain ⟨z, hz, rfl⟩ := List.mem_map.1 hy
        rw [(hls z hz).1, hll]
      obtain ⟨c, hc, hcc, hco⟩ := column_of (k := k) (by rw [hll]; exact hk) hcl
      have hcols : ∀ d ∈ columnsOf l.2.length ((l :: l2 :: ls).map (·.2)), d.length = rs.length := by
        intro d hd
        obtain ⟨j, hj, hje⟩ := List.getElem_of_mem hd
        have hj' : j < l.2.length := by simpa [columnsOf] using hj
        obtain ⟨c', hc', hcc', _⟩ := column_of hj' hcl
        rw [List.getElem?_eq_getElem hj, hje, Option.some.injEq] at hc'
        subst hc'
        rw [hcc', List.length_map, hlen]
      obtain ⟨r, q1, q2, q3, q4, _, q6⟩ := combineAll_spec (n := rs.length) toWeight l.2 (relative (rankWeights S rs))
        (columnsOf l.2.length ((l :: l2 :: ls).map (·.2))) (by simp [relative, hwl]) (relative_pos hwp)
        (by simp [columnsOf]) hcols k o c ho hc
      refine ⟨r, by rw [← h.2]; exact q1, by rw [q2, hod], by rw [q4, hom], ?_⟩
      have hmem : spot it t ++ [0] ∈ stepIndices o := by
        unfold stepIndices
        rw [hod, List.dropLast_concat]
        exact List.mem_map.2 ⟨_, spot_mem_indices ht, rfl⟩
      obtain ⟨ws', hp, he⟩ := q6 honm _ hmem
      rw [he]
      have hcr : c.length = rs.length := by rw [hcc, List.length_map, hlen]
      apply combineOne_between
      · rw [hp.length_eq, List.length_map, hcr]
        simp [relative, hwl]
      · intro hnil
        have := congrArg List.length hnil
        rw [List.length_map, hcr, List.length_nil, ← hlen] at this
        simp at this
      · intro w hw
        exact relative_pos hwp w (hp.subset hw)
      · intro y hy
        obtain ⟨z, hz, rfl⟩ := List.mem_map.1 hy
        obtain ⟨m, hm, hmk⟩ := hco z hz
        obtain ⟨l', hl', rfl⟩ := List.mem_map.1 hm
        obtain ⟨_, o', ho', _, _, _, hb⟩ := hls l' hl'
        rw [hmk, Option.some.injEq] at ho'
        subst ho'
        exact hb

/-- One geometry of a process. -/
def single (g : List Nat) : GVar (List Nat) := ⟨[⟨"g", 1⟩], fun _ => g, fun _ => false⟩

/-- Its data, by time. -/
def series (xs : List Rat) : Var := ⟨"tas", [⟨"time", xs.length⟩, ⟨"g", 1⟩], ⟨[xs.length, 1], fun i => xs.getD (i.getD 0 0) 0⟩, none⟩

/-- The averages on the root of several processes. -/
def rootValues (rs : List (Rank (List Nat))) : Option (List (List Rat)) :=
  (getUnionedRanks squares rs udim ["tas"]).toOption.map fun r =>
    r.2.map fun v => (indices v.value.shape).map v.value.elem

example : rootValues [⟨single [1, 2, 3], [series [5, 7]]⟩, ⟨single [4], [series [5, 9]]⟩] = some [[5, 37 / 5]] := by
  decide +kernel

/-- Both geometries on one process. -/
def together (a b : List Nat) : GVar (List Nat) := ⟨[⟨"g", 2⟩], fun i => if i = [0] then a else b, fun _ => false⟩

/-- And their data. -/
def seriesTwo (xs ys : List Rat) : Var :=
  ⟨"tas", [⟨"time", xs.length⟩, ⟨"g", 2⟩],
    ⟨[xs.length, 2], fun i => if i.getD 1 0 = 0 then xs.getD (i.getD 0 0) 0 else ys.getD (i.getD 0 0) 0⟩, none⟩

/-- **C86 fails** on several processes: the root counts with the area of the union of all.  Two geometries of one size with
the values 0 and 3 have the mean 3/2 on one process, and 1 on two. -/
theorem C86_root_counterexample :
    rootValues [⟨together [1] [2], [seriesTwo [0] [3]]⟩] = some [[3 / 2]] ∧
      rootValues [⟨single [1], [series [0]]⟩, ⟨single [2], [series [3]]⟩] = some [[1]] := by
  decide +kernel

/-- **C86 fails** on several processes: the weights are sorted with the values of one time and used so for the next.  The
same data at two times have different averages. -/
theorem C86_times_counterexample :
    rootValues [⟨together [1, 2, 3] [4], [seriesTwo [5, 5] [1, 1]]⟩] = some [[4, 4]] ∧
      rootValues [⟨single [1, 2, 3], [series [5, 5]]⟩, ⟨single [4], [series [1, 1]]⟩] = some [[21 / 5, 9 / 5]] := by
  decide +kernel

/-- **C86 fails** on several processes: where the data of one process are missing, zero takes part in the mean. -/
theorem C86_ranks_missing_counterexample :
    rootValues [⟨together [1] [2], [{ seriesTwo [4] [7] with mask := some fun i => i.getD 1 0 = 1 }]⟩] = some [[4]] ∧
      rootValues [⟨single [1], [series [4]]⟩, ⟨single [2], [{ series [7] with mask := some fun _ => true }]⟩] =
        some [[8 / 3]] := by
  decide +kernel

end Ocgis.Props
