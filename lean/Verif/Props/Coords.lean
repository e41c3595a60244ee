import Verif.Proofs.Coords
/-!
# C18-C22: bounds, corners, wrapping, reordering, expansion
-/
namespace Ocgis.Props
open Ocgis.Coords Ocgis.Spec

/-! ### C18 -/

/-- C18: for every vector of at least two centroids, the bounds are computed, there is one cell per centroid, and
neighbouring cells share their edge, which is the midpoint of the two centroids. -/
theorem C18_bounds_contiguous (c : List Rat) (h : 2 ≤ c.length) : ∃ cells, boundsFrom1d c = .ok cells ∧
    cells.length = c.length ∧
    ∀ i (hi : i + 1 < c.length) a b, cells[i]? = some a → cells[i + 1]? = some b →
      a.2 = b.1 ∧ a.2 = (c[i] + c[i + 1]) / 2 := by
  obtain ⟨diff, e, h1, h2, _, h4, _, _⟩ := boundsVector_ok c h
  refine ⟨pairs e, by simp only [boundsFrom1d, h1]; rfl, by rw [pairs_length]; omega, ?_⟩
  intro i hi a b ha hb
  rw [pairs_get e i (by omega)] at ha
  rw [pairs_get e (i + 1) (by omega)] at hb
  cases ha; cases hb
  have := h4 i hi
  rw [List.getElem?_eq_getElem (by omega)] at this
  exact ⟨rfl, Option.some.inj this⟩

/-- C18: fewer than two centroids are refused. -/
theorem C18_too_short (c : List Rat) (h : c.length < 2) : boundsFrom1d c = .error .valueError := by
  unfold boundsFrom1d boundsVector
  rw [if_pos h]; rfl

/-- C18: for evenly spaced centroids, increasing or decreasing, every cell has the width of the spacing and the centroid
is its centre, hence strictly inside. -/
theorem C18_even_cells (a d : Rat) (n : Nat) (hn : 2 ≤ n) : ∃ cells, boundsFrom1d (evenly a d n) = .ok cells ∧
    cells.length = n ∧ ∀ i, i < n → ∃ lo hi, cells[i]? = some (lo, hi) ∧ hi - lo = d ∧
      (evenly a d n)[i]? = some ((lo + hi) / 2) ∧
      (0 < d → lo < (lo + hi) / 2 ∧ (lo + hi) / 2 < hi) ∧ (d < 0 → hi < (lo + hi) / 2 ∧ (lo + hi) / 2 < lo) := by
  have hlen : (evenly a d n).length = n := by simp [evenly]
  have hget : ∀ i (hi : i < (evenly a d n).length), (evenly a d n)[i] = a + i * d := by
    intro i hi; simp [evenly]
  obtain ⟨diff, e, h1, h2, h3, h4, h5, h6⟩ := boundsVector_ok (evenly a d n) (by omega)
  rw [evenly_diff a d n hn] at h6
  subst h6
  have hsucc : ∀ i : Nat, ((i + 1 : Nat) : Rat) = (i : Rat) + 1 := by intro i; simp
  -- every edge
  have hedge : ∀ i, i ≤ n → e[i]? = some (a + i * diff - diff / 2) := by
    intro i hi
    cases i with
    | zero =>
      rw [h3, hget, hget]
      congr 1
      simp
      grind
    | succ i =>
      by_cases hlast : i + 1 = n
      · have : e[i + 1]? = e[(evenly a diff n).length]? := by rw [hlast, hlen]
        rw [this, h5, hget, hget, hlen, hsucc]
        congr 1
        have e1 : ((n - 1 : Nat) : Rat) = i := by congr 1; omega
        have e2 : ((n - 2 : Nat) : Rat) = (i : Rat) - 1 := by
          have : i = (n - 2) + 1 := by omega
          rw [this, hsucc]; grind
        rw [e1, e2]
        grind
      · rw [h4 i (by omega), hget, hget, hsucc]
        congr 1
        grind
  refine ⟨pairs e, by simp only [boundsFrom1d, h1]; rfl, by rw [pairs_length]; omega, ?_⟩
  intro i hi
  have e1 := hedge i (by omega)
  have e2 := hedge (i + 1) (by omega)
  rw [List.getElem?_eq_getElem (by omega)] at e1 e2
  refine ⟨a + i * diff - diff / 2, a + (i + 1 : Nat) * diff - diff / 2, ?_, ?_, ?_, ?_, ?_⟩
  · rw [pairs_get e i (by omega), Option.some.inj e1, Option.some.inj e2]
  · rw [hsucc]; grind
  · rw [List.getElem?_eq_getElem (by omega), hget, hsucc]
    congr 1
    grind
  · intro hd; rw [hsucc]; constructor <;> grind
  · intro hd; rw [hsucc]; constructor <;> grind

example : boundsFrom1d (evenly 10 (-2) 3) = .ok [(11, 9), (9, 7), (7, 5)] := by decide +kernel

/-- C18: with strictly increasing centroids of any spacing, every centroid but the first and the last lies strictly inside
its cell. -/
theorem C18_interior_inside (c : List Rat) (h : 2 ≤ c.length)
    (hinc : ∀ i (hi : i + 1 < c.length), c[i] < c[i + 1]) : ∃ cells, boundsFrom1d c = .ok cells ∧
    ∀ i (_ : 0 < i) (hi : i + 1 < c.length) a, cells[i]? = some a → a.1 < c[i] ∧ c[i] < a.2 := by
  obtain ⟨diff, e, h1, h2, _, h4, _, _⟩ := boundsVector_ok c h
  refine ⟨pairs e, by simp only [boundsFrom1d, h1]; rfl, ?_⟩
  intro i h0 hi a ha
  rw [pairs_get e i (by omega)] at ha
  cases ha
  obtain ⟨k, rfl⟩ : ∃ k, i = k + 1 := ⟨i - 1, by omega⟩
  have e1 := h4 k (by omega)
  have e2 := h4 (k + 1) hi
  rw [List.getElem?_eq_getElem (by omega)] at e1 e2
  have i1 := hinc k (by omega)
  have i2 := hinc (k + 1) hi
  simp only [Option.some.inj e1, Option.some.inj e2]
  constructor <;> grind

/-- C18: the restriction to even spacing matters: the first centroid of an unevenly spaced vector can lie outside its
own cell. -/
theorem C18_uneven_edge_outside :
    ∃ lo hi rest, boundsFrom1d [0, 10, 21/2, 11] = .ok ((lo, hi) :: rest) ∧ (0 : Rat) < lo ∧ lo < hi :=
  ⟨17/8, 5, [(5, 41/4), (41/4, 43/4), (43/4, 109/8)], by decide +kernel, by decide +kernel, by decide +kernel⟩

/-! ### C19 -/

/-- C19, mesh to cells to mesh: from the corners of the cells of any mesh (with at least one cell), the mesh comes back,
rows and columns exchanged as documented. -/
theorem C19_mesh_round_trip {α : Type _} (zero : α) (m n : Nat) (hm : 0 < m) (hn : 0 < n) (mesh : Nat → Nat → α)
    (i j : Nat) (hi : i ≤ m) (hj : j ≤ n) : meshFromCells zero m n (cellCorners mesh) j i = mesh i j := by
  have := foldl_put (fun p q => mesh q p) (cellCorners mesh) (cellIndices m n) (fun ij _ => rfl) (fun _ _ => zero) j i
    (Or.inl (cellIndices_cover m n j i hm hn hj hi))
  exact this

/-- C19, cells to mesh to cells: whenever neighbouring cells share corners, converting to a mesh (and exchanging its axes
back) and then to cells gives every cell the same four corners, in the same order. -/
theorem C19_cells_round_trip {α : Type _} (zero : α) (m n : Nat) (cells : Nat → Nat → Corners α) (h : Shared m n cells)
    (i j : Nat) (hi : i < m) (hj : j < n) :
    cellCorners (fun p q => meshFromCells zero m n cells q p) i j = cells i j := by
  let g : Nat → Nat → α := fun q p =>
    if p < m then (if q < n then (cells p q).c0 else (cells p (q - 1)).c1)
    else (if q < n then (cells (p - 1) q).c3 else (cells (p - 1) (q - 1)).c2)
  have key : ∀ ij : Nat × Nat, ij.1 < m → ij.2 < n →
      cells ij.1 ij.2 = ⟨g ij.2 ij.1, g (ij.2 + 1) ij.1, g (ij.2 + 1) (ij.1 + 1), g ij.2 (ij.1 + 1)⟩ := by
    rintro ⟨i, j⟩ hi hj
    simp only at hi hj
    have h0 : g j i = (cells i j).c0 := by simp only [g, if_pos hi, if_pos hj]
    have h1 : g (j + 1) i = (cells i j).c1 := by
      simp only [g, if_pos hi]
      split
      · next hh => exact ((h.1 i j hi hh).1).symm
      · rfl
    have h3 : g j (i + 1) = (cells i j).c3 := by
      simp only [g, if_pos hj]
      split
      · next hh => exact ((h.2 i j hh hj).1).symm
      · rfl
    have h2 : g (j + 1) (i + 1) = (cells i j).c2 := by
      simp only [g]
      split
      · next hh =>
        split
        · next hh2 => rw [(h.1 i j hi hh2).2]; exact ((h.2 i (j + 1) hh hh2).1).symm
        · exact ((h.2 i j hh hj).2).symm
      · split
        · next hh2 => exact ((h.1 i j hi hh2).2).symm
        · rfl
    rw [h0, h1, h2, h3]
  have hfill : ∀ p q, (∃ ij ∈ cellIndices m n, (p = ij.2 ∨ p = ij.2 + 1) ∧ (q = ij.1 ∨ q = ij.1 + 1)) →
      meshFromCells zero m n cells p q = g p q := by
    intro p q hpq
    exact foldl_put g cells (cellIndices m n) (fun ij hij => key ij (mem_cellIndices hij).1 (mem_cellIndices hij).2)
      (fun _ _ => zero) p q (Or.inl hpq)
  have hmem : (i, j) ∈ cellIndices m n := by
    simp only [cellIndices, List.mem_flatMap, List.mem_range, List.mem_map]
    exact ⟨i, hi, j, hj, rfl⟩
  unfold cellCorners
  simp only
  rw [hfill j i ⟨(i, j), hmem, by simp⟩, hfill (j + 1) i ⟨(i, j), hmem, by simp⟩,
    hfill (j + 1) (i + 1) ⟨(i, j), hmem, by simp⟩, hfill j (i + 1) ⟨(i, j), hmem, by simp⟩]
  exact (key (i, j) hi hj).symm

example : Shared 2 3 (cellCorners fun i j => 10 * i + j) := by
  refine ⟨fun i j _ _ => ⟨rfl, rfl⟩, fun i j _ _ => ⟨rfl, rfl⟩⟩

/-! ### C20 -/

/-- C20, on single longitudes. -/
theorem C20_wrap_unwrap (x : Rat) :
    (0 ≤ x → x ≤ 360 → -180 < wrap1 180 x ∧ wrap1 180 x ≤ 180) ∧
    (-180 ≤ x → x ≤ 180 → 0 ≤ unwrap1 0 x ∧ unwrap1 0 x < 360) ∧
    (x ≤ 540 → wrap1 180 (wrap1 180 x) = wrap1 180 x) ∧ (-360 ≤ x → unwrap1 0 (unwrap1 0 x) = unwrap1 0 x) ∧
    (wrap1 180 x = x ∨ wrap1 180 x = x - 360) ∧ (unwrap1 0 x = x ∨ unwrap1 0 x = x + 360) ∧
    (0 ≤ x → x < 360 → unwrap1 0 (wrap1 180 x) = x) ∧ (-180 < x → x ≤ 180 → wrap1 180 (unwrap1 0 x) = x) := by
  unfold wrap1 unwrap1
  refine ⟨?_, ?_, ?_, ?_, ?_, ?_, ?_, ?_⟩ <;> grind

/-- C20: the two seam values do not come back: 360 becomes 0 and -180 becomes 180. -/
theorem C20_seam : unwrap1 0 (wrap1 180 360) = 0 ∧ wrap1 180 (unwrap1 0 (-180)) = 180 := by
  unfold wrap1 unwrap1
  constructor <;> grind

/-- C20, on arrays: element by element, the same length, and mutually inverse away from the seam. -/
theorem C20_arrays (xs : List Rat) :
    (wrap xs).length = xs.length ∧ (unwrap xs).length = xs.length ∧
    ((∀ x ∈ xs, 0 ≤ x ∧ x ≤ 360) → ∀ y ∈ wrap xs, -180 < y ∧ y ≤ 180) ∧
    ((∀ x ∈ xs, -180 ≤ x ∧ x ≤ 180) → ∀ y ∈ unwrap xs, 0 ≤ y ∧ y < 360) ∧
    ((∀ x ∈ xs, 0 ≤ x ∧ x < 360) → unwrap (wrap xs) = xs) ∧ ((∀ x ∈ xs, -180 < x ∧ x ≤ 180) → wrap (unwrap xs) = xs) := by
  refine ⟨by simp [wrap], by simp [unwrap], ?_, ?_, ?_, ?_⟩
  · intro h y hy
    obtain ⟨x, hx, rfl⟩ := List.mem_map.1 hy
    exact (C20_wrap_unwrap x).1 (h x hx).1 (h x hx).2
  · intro h y hy
    obtain ⟨x, hx, rfl⟩ := List.mem_map.1 hy
    exact (C20_wrap_unwrap x).2.1 (h x hx).1 (h x hx).2
  · intro h
    simp only [wrap, unwrap, List.map_map]
    conv => rhs; rw [← List.map_id xs]
    apply List.map_congr_left
    intro x hx
    exact (C20_wrap_unwrap x).2.2.2.2.2.2.1 (h x hx).1 (h x hx).2
  · intro h
    simp only [wrap, unwrap, List.map_map]
    conv => rhs; rw [← List.map_id xs]
    apply List.map_congr_left
    intro x hx
    exact (C20_wrap_unwrap x).2.2.2.2.2.2.2 (h x hx).1 (h x hx).2

example : wrap [1, 90, 180, 270, 359] = [1, 90, 180, -90, -1] := by decide +kernel

/-- C20, on points, with the default axes. -/
theorem C20_points (p : Rat × Rat) (h0 : 0 ≤ p.1) (h1 : p.1 < 360) :
    wrapPoint 180 p = (wrap1 180 p.1, p.2) ∧ unwrapPoint 0 p = (unwrap1 0 p.1, p.2) ∧
      unwrapPoint 0 (wrapPoint 180 p) = p := by
  obtain ⟨x, y⟩ := p
  unfold wrapPoint unwrapPoint wrap1 unwrap1
  simp only at h0 h1 ⊢
  refine ⟨?_, ?_, ?_⟩ <;> grind

/-- C20: with another wrap axis, points are still wrapped at 180 while arrays are wrapped at the given axis. -/
theorem C20_point_axis_ignored : wrapPoint 200 (190, 0) = (-170, 0) ∧ wrap1 200 190 = 190 := by
  unfold wrapPoint wrap1
  constructor <;> decide +kernel

/-! ### C21 -/

/-- C21, partial (rows without a negative longitude are excluded, see the counterexample below): when every longitude row has a negative value, reordering succeeds for all arrays over the rows: each row of
longitudes and each line of data (values with their masks) of that row is rotated by the same amount, so that the row's
first negative longitude comes first. -/
theorem C21_rotation_partial {α : Type} (x : List (List Rat)) (arrays : List (List (Nat × List α)))
    (hneg : ∀ row ∈ x, ∃ v ∈ row, v < 0)
    (hlines : ∀ arr ∈ arrays, ∀ l ∈ arr, ∃ row, x[l.1]? = some row ∧ l.2.length = row.length) :
    ∃ splits : List Nat, splits.length = x.length ∧
      (∀ (r : Nat) (row : List Rat) (k : Nat), x[r]? = some row → splits[r]? = some k → k < row.length ∧ (∃ v, row[k]? = some v ∧ v < 0) ∧
        ∀ (j : Nat) v, j < k → row[j]? = some v → 0 ≤ v) ∧
      reorder x arrays = .ok (
        (x.zip splits).map (fun rs => rs.1.drop rs.2 ++ rs.1.take rs.2),
        arrays.map fun arr => arr.map fun l => (l.1, l.2.drop (splits.getD l.1 0) ++ l.2.take (splits.getD l.1 0))) := by
  have hs : ∀ row ∈ x, ∃ k, splitIndex row = .ok k := by
    intro row hrow
    obtain ⟨v, hv, hv0⟩ := hneg row hrow
    unfold splitIndex
    cases e : row.findIdx? (fun x => decide (x < 0)) with
    | none =>
      rw [List.findIdx?_eq_none_iff] at e
      have := e v hv
      simp only [decide_eq_false_iff_not] at this
      exact absurd hv0 this
    | some k => exact ⟨k, rfl⟩
  let sp : List Rat → Nat := fun row => match splitIndex row with | .ok k => k | .error _ => 0
  have hsp : ∀ row ∈ x, splitIndex row = .ok (sp row) := by
    intro row hrow
    obtain ⟨k, hk⟩ := hs row hrow
    simp only [sp, hk]
  have hm : ∀ l : List (List Rat), (∀ row ∈ l, splitIndex row = .ok (sp row)) → l.mapM splitIndex = .ok (l.map sp) := by
    intro l
    induction l with
    | nil => intro _; rfl
    | cons a l ih =>
      intro h
      rw [List.mapM_cons, h a (by simp), ih (fun r hr => h r (by simp [hr]))]
      rfl
  have hget : ∀ (r : Nat) row, x[r]? = some row → (x.map sp)[r]? = some (sp row) := by
    intro r row h; rw [List.getElem?_map, h]; rfl
  have hra : ∀ {β : Type} (arr : List (Nat × List β)),
      (∀ l ∈ arr, ∃ row, x[l.1]? = some row ∧ l.2.length = row.length) →
      reorderArray (x.map sp) arr
        = .ok (arr.map fun l => (l.1, l.2.drop ((x.map sp).getD l.1 0) ++ l.2.take ((x.map sp).getD l.1 0))) := by
    intro β arr
    unfold reorderArray
    induction arr with
    | nil => intro _; rfl
    | cons l arr ih =>
      intro h
      obtain ⟨row, hr, hl⟩ := h l (by simp)
      have hk := (splitIndex_ok row _ (hsp row (List.mem_of_getElem? hr))).1
      rw [List.mapM_cons, hget _ _ hr, ih (fun y hy => h y (by simp [hy]))]
      have hg : (x.map sp).getD l.1 0 = sp row := by
        rw [List.getD_eq_getElem?_getD, hget _ _ hr]; rfl
      simp only [List.map_cons, hg]
      rw [reorderLine_eq (sp row) l.2 (by omega)]
      rfl
  refine ⟨x.map sp, by simp, ?_, ?_⟩
  · intro r row k hr hk
    rw [hget _ _ hr] at hk
    cases hk
    exact splitIndex_ok row _ (hsp row (List.mem_of_getElem? hr))
  · have hx := hra ((List.range x.length).zip x) (by
      intro l hl
      obtain ⟨i, hi⟩ := List.getElem?_of_mem hl
      rw [List.getElem?_zip_eq_some] at hi
      obtain ⟨h1, h2⟩ := hi
      have hlt := (List.getElem?_eq_some_iff.1 h2).1
      rw [List.getElem?_range hlt] at h1
      cases h1
      exact ⟨l.2, h2, rfl⟩)
    have harr : arrays.mapM (reorderArray (x.map sp)) = .ok (arrays.map fun arr => arr.map fun l =>
        (l.1, l.2.drop ((x.map sp).getD l.1 0) ++ l.2.take ((x.map sp).getD l.1 0))) := by
      have : ∀ as : List (List (Nat × List α)), (∀ arr ∈ as, arr ∈ arrays) → as.mapM (reorderArray (x.map sp))
          = .ok (as.map fun arr => arr.map fun l =>
            (l.1, l.2.drop ((x.map sp).getD l.1 0) ++ l.2.take ((x.map sp).getD l.1 0))) := by
        intro as
        induction as with
        | nil => intro _; rfl
        | cons a as ih =>
          intro h
          rw [List.mapM_cons, hra a (hlines a (h a (by simp))), ih (fun y hy => h y (by simp [hy]))]
          rfl
      exact this arrays (fun _ h => h)
    unfold reorder
    rw [hm x hsp]
    simp only [bind, Except.bind]
    rw [hx]
    simp only [harr]
    congr 2
    rw [List.map_map]
    apply List.ext_getElem?
    intro i
    rw [List.getElem?_map, List.getElem?_map]
    by_cases hi : i < x.length
    · have e1 : ((List.range x.length).zip x)[i]? = some (i, x[i]) := by
        rw [List.getElem?_zip_eq_some]
        exact ⟨List.getElem?_range hi, List.getElem?_eq_getElem hi⟩
      have e2 : (x.zip (x.map sp))[i]? = some (x[i], sp x[i]) := by
        rw [List.getElem?_zip_eq_some]
        exact ⟨List.getElem?_eq_getElem hi, hget _ _ (List.getElem?_eq_getElem hi)⟩
      rw [e1, e2]
      have hg : (x.map sp).getD i 0 = sp x[i] := by
        rw [List.getD_eq_getElem?_getD, hget _ _ (List.getElem?_eq_getElem hi)]; rfl
      simp only [Option.map_some, Function.comp, hg]
    · rw [List.getElem?_eq_none (by simp; omega), List.getElem?_eq_none (by simp; omega)]
      rfl

/-- C21 on a grid with coordinate vectors: one split for the longitude vector and for every row of the data. -/
theorem C21_rotation_vector {α : Type} (x : List Rat) (nrow : Nat) (arrays : List (List (Nat × List α)))
    (hneg : ∃ v ∈ x, v < 0) (hlines : ∀ arr ∈ arrays, ∀ l ∈ arr, l.1 < nrow ∧ l.2.length = x.length) :
    ∃ k, k < x.length ∧ (∃ v, x[k]? = some v ∧ v < 0) ∧ (∀ (j : Nat) v, j < k → x[j]? = some v → 0 ≤ v) ∧
      reorderVectorized x nrow arrays = .ok (x.drop k ++ x.take k,
        arrays.map fun arr => arr.map fun l => (l.1, l.2.drop k ++ l.2.take k)) := by
  obtain ⟨v, hv, hv0⟩ := hneg
  have hs : ∃ k, splitIndex x = .ok k := by
    unfold splitIndex
    cases e : x.findIdx? (fun x => decide (x < 0)) with
    | none =>
      rw [List.findIdx?_eq_none_iff] at e
      have := e v hv
      simp only [decide_eq_false_iff_not] at this
      exact absurd hv0 this
    | some k => exact ⟨k, rfl⟩
  obtain ⟨k, hk⟩ := hs
  obtain ⟨h1, h2, h3⟩ := splitIndex_ok x k hk
  refine ⟨k, h1, h2, h3, ?_⟩
  have hra : ∀ arr : List (Nat × List α), (∀ l ∈ arr, l.1 < nrow ∧ l.2.length = x.length) →
      reorderArray (List.replicate nrow k) arr = .ok (arr.map fun l => (l.1, l.2.drop k ++ l.2.take k)) := by
    intro arr
    unfold reorderArray
    induction arr with
    | nil => intro _; rfl
    | cons l arr ih =>
      intro h
      obtain ⟨hr, hl⟩ := h l (by simp)
      rw [List.mapM_cons, ih (fun y hy => h y (by simp [hy])), List.getElem?_replicate, if_pos hr]
      simp only [List.map_cons]
      rw [reorderLine_eq k l.2 (by omega)]
      rfl
  have harr : ∀ as : List (List (Nat × List α)), (∀ arr ∈ as, arr ∈ arrays) →
      as.mapM (reorderArray (List.replicate nrow k))
        = .ok (as.map fun arr => arr.map fun l => (l.1, l.2.drop k ++ l.2.take k)) := by
    intro as
    induction as with
    | nil => intro _; rfl
    | cons a as ih =>
      intro h
      rw [List.mapM_cons, hra a (hlines a (h a (by simp))), ih (fun y hy => h y (by simp [hy]))]
      rfl
  unfold reorderVectorized
  rw [hk]
  simp only [bind, Except.bind, harr arrays (fun _ h => h)]
  rw [reorderLine_eq k x (by omega)]

example : (reorderVectorized (wrap [0, 90, 180, 270]) 2 [[(0, [1, 2, 3, 4]), (1, [5, 6, 7, 8])]])
    = .ok ([-90, 0, 90, 180], [[(0, [4, 1, 2, 3]), (1, [8, 5, 6, 7])]]) := by decide +kernel

/-- C21: a rotation loses nothing, and undoing it gives the original row. -/
theorem C21_nothing_lost {α : Type _} (k : Nat) (line : List α) (h : k ≤ line.length) :
    (reorderLine k line).Perm line ∧ (reorderLine k line).length = line.length ∧
      reorderLine (line.length - k) (reorderLine k line) = line := by
  have e := reorderLine_eq k line h
  have hp : (reorderLine k line).Perm line := by
    rw [e]
    have := List.perm_append_comm (l₁ := line.drop k) (l₂ := line.take k)
    rwa [List.take_append_drop] at this
  refine ⟨hp, hp.length_eq, ?_⟩
  rw [reorderLine_eq _ _ (by rw [hp.length_eq]; omega), e]
  rw [List.drop_left' (by simp), List.take_left' (by simp), List.take_append_drop]

/-- C21: take a strictly increasing row of longitudes in 0..360 (360 excluded), wrap it and rotate its first negative
value to the front: the result is strictly increasing. -/
theorem C21_increasing (xs : List Rat) (hinc : xs.Pairwise (· < ·)) (hr : ∀ x ∈ xs, 0 ≤ x ∧ x < 360)
    (k : Nat) (hk : splitIndex (wrap xs) = .ok k) : (reorderLine k (wrap xs)).Pairwise (· < ·) := by
  obtain ⟨h1, ⟨v, hv, hv0⟩, h3⟩ := splitIndex_ok _ _ hk
  rw [reorderLine_eq _ _ (by omega)]
  have hlen : (wrap xs).length = xs.length := by simp [wrap]
  have hw : ∀ i (hi : i < xs.length), (wrap xs)[i]'(by omega) = wrap1 180 xs[i] := by
    intro i hi; simp [wrap]
  have hx := List.pairwise_iff_getElem.1 hinc
  -- before the split nothing moves, from the split on everything moves
  have hlow : ∀ i (hi : i < xs.length), i < k → (wrap xs)[i]'(by omega) = xs[i] := by
    intro i hi hik
    have := h3 i _ hik (List.getElem?_eq_getElem (by omega))
    rw [hw i hi] at this ⊢
    have hb := hr xs[i] (List.getElem_mem hi)
    unfold wrap1 at this ⊢
    split
    · next hgt => rw [if_pos hgt] at this; grind
    · rfl
  have hhigh : ∀ i (hi : i < xs.length), k ≤ i → (wrap xs)[i]'(by omega) = xs[i] - 360 := by
    intro i hi hik
    have hk180 : 180 < xs[k] := by
      rw [List.getElem?_eq_getElem h1, hw k (by omega)] at hv
      have hv := Option.some.inj hv
      have hb := hr (xs[k]'(by omega)) (List.getElem_mem (by omega))
      unfold wrap1 at hv
      split at hv
      · next h => exact h
      · grind
    have : 180 < xs[i] := by
      rcases Nat.lt_or_ge k i with h | h
      · have := hx k i (by omega) hi h; grind
      · have : i = k := by omega
        subst this; exact hk180
    rw [hw i hi]; unfold wrap1; rw [if_pos this]
  rw [List.pairwise_append]
  refine ⟨?_, ?_, ?_⟩
  · rw [List.pairwise_iff_getElem]
    intro i j hi hj hij
    simp only [List.length_drop] at hi hj
    rw [List.getElem_drop, List.getElem_drop, hhigh (k + i) (by omega) (by omega), hhigh (k + j) (by omega) (by omega)]
    have := hx (k + i) (k + j) (by omega) (by omega) (by omega)
    grind
  · rw [List.pairwise_iff_getElem]
    intro i j hi hj hij
    simp only [List.length_take] at hi hj
    rw [List.getElem_take, List.getElem_take, hlow i (by omega) (by omega), hlow j (by omega) (by omega)]
    exact hx i j (by omega) (by omega) hij
  · intro a ha b hb
    obtain ⟨i, hi, rfl⟩ := List.getElem_of_mem ha
    obtain ⟨j, hj, rfl⟩ := List.getElem_of_mem hb
    simp only [List.length_drop] at hi
    simp only [List.length_take] at hj
    rw [List.getElem_drop, List.getElem_take, hhigh (k + i) (by omega) (by omega), hlow j (by omega) (by omega)]
    have b1 := hr (xs[k + i]'(by omega)) (List.getElem_mem (by omega))
    have b2 := hr (xs[j]'(by omega)) (List.getElem_mem (by omega))
    grind

example : splitIndex (wrap [0, 90, 180, 270]) = .ok 3 ∧ reorderLine 3 (wrap [0, 90, 180, 270]) = [-90, 0, 90, 180] := by
  decide +kernel

/-- C21: a row without a negative longitude (possible in a wrapped two-dimensional grid) makes the whole reordering fail. -/
theorem C21_row_without_negative_counterexample {α : Type} (arrays : List (List (Nat × List α))) (x : List (List Rat)) (row : List Rat)
    (hrow : row ∈ x) (hpos : ∀ v ∈ row, 0 ≤ v) : reorder x arrays = .error .typeError := by
  have hbad : splitIndex row = .error .typeError := by
    unfold splitIndex
    have : row.findIdx? (fun x => decide (x < 0)) = none := by
      rw [List.findIdx?_eq_none_iff]
      intro v hv
      have := hpos v hv
      simpa [Rat.not_lt] using this
    rw [this]
  have hm : ∀ l : List (List Rat), row ∈ l → l.mapM splitIndex = .error .typeError := by
    intro l
    induction l with
    | nil => intro h; simp at h
    | cons a l ih =>
      intro h
      rw [List.mapM_cons]
      by_cases e : a = row
      · subst e; rw [hbad]; rfl
      · rw [ih (by rcases List.mem_cons.1 h with h | h; exact absurd h.symm e; exact h)]
        unfold splitIndex
        cases a.findIdx? (fun x => decide (x < 0)) <;> rfl
  unfold reorder
  rw [hm x hrow]
  rfl

example : ∀ row ∈ ([[5, -3, -1], [0, 2, -4]] : List (List Rat)), ∃ v ∈ row, v < 0 := by decide +kernel

/-! ### C22 -/

/-- C22: for every rectilinear grid, the cell in row `i` and column `j` of the expanded grid has the centre given by
the `j`-th longitude and `i`-th latitude, and the corners of the rectangle of the `j`-th and `i`-th bounds,
counter-clockwise from the lower left. -/
theorem C22_expand (g : Grid1) (i j : Nat) (x y : Rat) (xb yb : Rat × Rat) (hx : g.x[j]? = some x) (hy : g.y[i]? = some y)
    (hxb : g.xb[j]? = some xb) (hyb : g.yb[i]? = some yb) :
    ((expandX g)[i]?.bind (·[j]?)) = some x ∧ ((expandY g)[i]?.bind (·[j]?)) = some y ∧
    ∃ cx cy, ((expandXb g)[i]?.bind (·[j]?)) = some cx ∧ ((expandYb g)[i]?.bind (·[j]?)) = some cy ∧
      [(cx.c0, cy.c0), (cx.c1, cy.c1), (cx.c2, cy.c2), (cx.c3, cy.c3)] = rectangle xb yb := by
  refine ⟨by simp [expandX, hx, hy], by simp [expandY, hx, hy], ⟨xb.1, xb.2, xb.2, xb.1⟩, ⟨yb.1, yb.1, yb.2, yb.2⟩,
    by simp [expandXb, hxb, hyb], by simp [expandYb, hxb, hyb], rfl⟩

/-- C22: and the corners are in counter-clockwise order. -/
theorem C22_counter_clockwise (x y : Rat × Rat) (hx : x.1 < x.2) (hy : y.1 < y.2) : 0 < signedArea2 (rectangle x y) := by
  obtain ⟨a, b⟩ := x
  obtain ⟨c, d⟩ := y
  simp only [rectangle, signedArea2] at *
  have h1 : 0 < b - a := by grind
  have h2 : 0 < d - c := by grind
  have := Rat.mul_pos h1 h2
  grind

/-- C22: the expanded arrays have one entry per cell. -/
theorem C22_shape (g : Grid1) : (expandX g).length = g.y.length ∧ (∀ row ∈ expandX g, row.length = g.x.length) ∧
    (expandY g).length = g.y.length ∧ (∀ row ∈ expandY g, row.length = g.x.length) := by
  simp [expandX, expandY]

end Ocgis.Props
