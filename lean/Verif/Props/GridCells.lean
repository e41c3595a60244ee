import Verif.Proofs.GridCells
/-!
# C111: The geometries of a grid are its cells
-/
namespace Ocgis.Props
open Ocgis.GridCells Ocgis.Spec Ocgis.Proofs.GridCells

/-- C111: the points of a grid are the centres of its cells, each in its place; masked cells have none, and the mask is that of the grid. -/
theorem C111_points (g : CGrid) (he : g.empty = false) :
    ∃ v f, getPoint g = .ok v ∧ v.value = some f ∧ v.mask = g.mask ∧ (∀ i j, CellMasked g i j → f i j = none) ∧
      ∀ i j, i < g.rows → j < g.cols → ¬CellMasked g i j → f i j = some (.point (centreOf g i j).1 (centreOf g i j).2) := by
  obtain ⟨v, f, h1, -, h3, h4, h5, h6⟩ := geometryVariable_ok (g := g) he false (mk := fun i j => .ok (center g.coords i j))
    (by simp [maker]) (fun i j _ _ _ => ⟨_, rfl⟩)
  refine ⟨v, f, h1, h3, h4, h5, fun i j hi hj hm => ?_⟩
  obtain ⟨d, hd, hf⟩ := h6 i j hi hj hm
  injection hd with hd
  rw [hf, ← hd]
  unfold center centreOf
  cases g.coords <;> rfl

/-- A grid of two rows and three columns with falling latitudes; one cell is masked. -/
def cellsDemo : CGrid :=
  { rows := 2, cols := 3, mask := some fun i j => i == 1 && j == 2,
    coords := .vector ⟨fun j => j, some fun j => [(j : Rat) - 1 / 2, (j : Rat) + 1 / 2]⟩
      ⟨fun i => 10 - (i : Rat), some fun i => [10 - (i : Rat) + 1 / 2, 10 - (i : Rat) - 1 / 2]⟩ }

example : ∃ v f, getPoint cellsDemo = .ok v ∧ v.value = some f ∧
    (f 0 2, f 1 0, f 1 2) = (some (.point 2 10), some (.point 0 9), none) := ⟨_, _, rfl, rfl, by decide +kernel⟩

/-- C111 (both coordinates have bounds and polygons are wanted): the polygons of a grid are its cells, each in its place: the smallest box
with the bounds, or the corners in their order; masked cells have none, and the mask is that of the grid. -/
theorem C111_polygons_partial (g : CGrid) (he : g.empty = false) (hb : Bounded g) (ha : g.overload ≠ some .point) :
    ∃ v f, getPolygon g = .ok v ∧ getAbstraction g = .ok v ∧ v.name = "ocgis_polygon" ∧ v.value = some f ∧ v.mask = g.mask ∧
      (∀ i j, CellMasked g i j → f i j = none) ∧
      ∀ i j, i < g.rows → j < g.cols → ¬CellMasked g i j → ∃ c, f i j = some c ∧ CellPolygon g i j c := by
  obtain ⟨hsome, hbounds⟩ := hb
  have hhb : g.hasBounds = true := by
    have := (hsome 0 0).2
    unfold boundsOf at this
    unfold CGrid.hasBounds
    cases hc : g.coords with
    | vector x y => rw [hc] at this; cases hy : y.bounds <;> simp [hy] at this ⊢
    | matrix x y => rw [hc] at this; cases hy : y.bounds <;> simp [hy] at this ⊢
  have hab : g.abstraction = .polygon := by
    unfold CGrid.abstraction
    cases ho : g.overload with
    | none => simp [hhb]
    | some a =>
      cases a with
      | polygon => rfl
      | point => exact absurd ho ha
  have main : ∃ mk, maker g true = .ok mk ∧ ∀ i j, i < g.rows → j < g.cols → ∃ c, mk i j = .ok c ∧ CellPolygon g i j c := by
    cases hc : g.coords with
    | vector x y =>
      have h0 := hsome 0 0
      have hv : IsVector g := ⟨x, y, hc⟩
      cases hx : x.bounds with
      | none => simp [boundsOf, hc, hx] at h0
      | some xb =>
        cases hy : y.bounds with
        | none => simp [boundsOf, hc, hy] at h0
        | some yb =>
          refine ⟨fun i j => boxOf (xb j) (yb i), by simp [maker, hab, hhb, hc, hx, hy], fun i j hi hj => ?_⟩
          have hbo : boundsOf g i j = (some (xb j), some (yb i)) := by simp [boundsOf, hc, hx, hy]
          obtain ⟨hxn, hyn, -⟩ := hbounds i j _ _ hi hj hbo
          obtain ⟨a, b, p, q, e1, e2, e3⟩ := boxOf_ok _ _ hxn hyn
          exact ⟨_, e1, _, _, hbo, fun _ => ⟨a, b, p, q, rfl, e2, e3⟩, fun h => absurd hv h⟩
    | matrix x y =>
      have h0 := hsome 0 0
      have hv : ¬IsVector g := by rintro ⟨x', y', h⟩; rw [hc] at h; cases h
      cases hx : x.bounds with
      | none => simp [boundsOf, hc, hx] at h0
      | some xb =>
        cases hy : y.bounds with
        | none => simp [boundsOf, hc, hy] at h0
        | some yb =>
          refine ⟨fun i j => ringOf (xb (i, j)) (yb (i, j)), by simp [maker, hab, hhb, hc, hx, hy], fun i j hi hj => ?_⟩
          have hbo : boundsOf g i j = (some (xb (i, j)), some (yb (i, j))) := by simp [boundsOf, hc, hx, hy]
          obtain ⟨-, -, h3⟩ := hbounds i j _ _ hi hj hbo
          obtain ⟨e1, e2⟩ := h3 hv
          exact ⟨_, ringOf_ok _ _ e1 e2, _, _, hbo, fun h => absurd h hv, fun _ => ⟨e1, e2, rfl⟩⟩
  obtain ⟨mk, hmk, hall⟩ := main
  obtain ⟨v, f, h1, h2, h3, h4, h5, h6⟩ := geometryVariable_ok (g := g) he true hmk
    (fun i j hi hj _ => (hall i j hi hj).imp fun _ h => h.1)
  refine ⟨v, f, h1, by rw [getAbstraction, hab]; exact h1, by rw [h2, hab]; rfl, h3, h4, h5, fun i j hi hj hm => ?_⟩
  obtain ⟨d, hd, hf⟩ := h6 i j hi hj hm
  obtain ⟨c, hc, hp⟩ := hall i j hi hj
  rw [hd] at hc
  injection hc with hc
  subst hc
  exact ⟨d, hf, hp⟩

example : ∃ v f, getPolygon cellsDemo = .ok v ∧ v.value = some f ∧
    (f 0 2, f 1 0, f 1 2) = (some (.box (3 / 2) (19 / 2) (5 / 2) (21 / 2)), some (.box (-1 / 2) (17 / 2) (1 / 2) (19 / 2)), none) :=
  ⟨_, _, rfl, rfl, by decide +kernel⟩

/-- A cell with four corners that is no box. -/
def cellsSkew : CGrid :=
  { rows := 1, cols := 1, coords := .matrix ⟨fun _ => 1, some fun _ => [0, 2, 3, 1]⟩ ⟨fun _ => 5, some fun _ => [4, 4, 6, 6]⟩ }

example : Bounded cellsSkew ∧ ∃ v f, getPolygon cellsSkew = .ok v ∧ v.value = some f ∧ f 0 0 = some (.ring [(0, 4), (2, 4), (3, 6), (1, 6)]) := by
  refine ⟨⟨fun i j => by simp [boundsOf, cellsSkew], fun i j xs ys _ _ h => ?_⟩, _, _, rfl, rfl, by decide +kernel⟩
  simp only [boundsOf, cellsSkew, Option.map_some, Prod.mk.injEq, Option.some.injEq] at h
  obtain ⟨rfl, rfl⟩ := h
  simp

/-- C111: the polygons of a grid whose one-dimensional bounds follow on one another, rising or falling, cover its extent without overlap:
every point inside is in exactly one of them. -/
theorem C111_tile (g : CGrid) (he : g.empty = false) (hm : g.mask = none) (ha : g.overload ≠ some .point) (x y : Axis Nat)
    (hc : g.coords = .vector x y) (xb yb : Nat → List Rat) (hx : x.bounds = some xb) (hy : y.bounds = some yb) (xlo xhi ylo yhi : Nat → Rat)
    (hxh : ∀ j, j < g.cols → Hull (xb j) (xlo j) (xhi j)) (hyh : ∀ i, i < g.rows → Hull (yb i) (ylo i) (yhi i))
    (hxc : Abutting g.cols xlo xhi) (hyc : Abutting g.rows ylo yhi) (px py : Rat)
    (hpx : (∃ j, j < g.cols ∧ xlo j ≤ px) ∧ ∃ j, j < g.cols ∧ px < xhi j)
    (hpy : (∃ i, i < g.rows ∧ ylo i ≤ py) ∧ ∃ i, i < g.rows ∧ py < yhi i) :
    ∃ v f, getPolygon g = .ok v ∧ v.value = some f ∧
      ∃ i j, i < g.rows ∧ j < g.cols ∧ (∃ c, f i j = some c ∧ InBox c px py) ∧
        ∀ i' j', i' < g.rows → j' < g.cols → (∃ c, f i' j' = some c ∧ InBox c px py) → i' = i ∧ j' = j := by
  have hb : Bounded g := by
    refine ⟨fun i j => by simp [boundsOf, hc, hx, hy], ?_⟩
    intro i j xs ys hi hj h
    simp only [boundsOf, hc, hx, hy, Option.map_some, Prod.mk.injEq, Option.some.injEq] at h
    obtain ⟨rfl, rfl⟩ := h
    refine ⟨List.ne_nil_of_mem (hxh j hj).1, List.ne_nil_of_mem (hyh i hi).1, fun h => absurd ⟨x, y, hc⟩ h⟩
  obtain ⟨v, f, h1, -, -, h3, -, -, h6⟩ := C111_polygons_partial g he hb ha
  have hnm : ∀ i j, ¬CellMasked g i j := by rintro i j ⟨m, h, -⟩; rw [hm] at h; cases h
  have hbox : ∀ i j, i < g.rows → j < g.cols → f i j = some (.box (xlo j) (ylo i) (xhi j) (yhi i)) := by
    intro i j hi hj
    obtain ⟨c, hf, xs, ys, hbo, hvec, -⟩ := h6 i j hi hj (hnm i j)
    simp only [boundsOf, hc, hx, hy, Option.map_some, Prod.mk.injEq, Option.some.injEq] at hbo
    obtain ⟨rfl, rfl⟩ := hbo
    obtain ⟨a, b, p, q, rfl, e1, e2⟩ := hvec ⟨x, y, hc⟩
    obtain ⟨rfl, rfl⟩ := hull_unique e1 (hxh j hj)
    obtain ⟨rfl, rfl⟩ := hull_unique e2 (hyh i hi)
    exact hf
  obtain ⟨j, hj, j1, j2⟩ := contiguous_exists hxc px hpx.1 hpx.2
  obtain ⟨i, hi, i1, i2⟩ := contiguous_exists hyc py hpy.1 hpy.2
  refine ⟨v, f, h1, h3, i, j, hi, hj, ⟨_, hbox i j hi hj, _, _, _, _, rfl, j1, j2, i1, i2⟩, ?_⟩
  rintro i' j' hi' hj' ⟨c, hf, a, p, b, q, rfl, k1, k2, k3, k4⟩
  rw [hbox i' j' hi' hj'] at hf
  injection hf with hf
  injection hf with e1 e2 e3 e4
  subst e1 e2 e3 e4
  exact ⟨contiguous_unique hyc py i' i hi' hi ⟨k3, k4⟩ ⟨i1, i2⟩, contiguous_unique hxc px j' j hj' hj ⟨k1, k2⟩ ⟨j1, j2⟩⟩

example : Abutting 2 (fun i => 10 - (i : Rat) - 1 / 2) (fun i => 10 - (i : Rat) + 1 / 2) ∧
    Abutting 3 (fun j => (j : Rat) - 1 / 2) (fun j => (j : Rat) + 1 / 2) := by
  refine ⟨⟨?_, .inr ?_⟩, ⟨?_, .inl ?_⟩⟩
  · intro k hk; grind
  · intro k hk
    have : k = 0 := by omega
    subst this; decide +kernel
  · intro k hk; grind
  · intro k hk
    have : k = 0 ∨ k = 1 := by omega
    rcases this with rfl | rfl <;> decide +kernel

/-- C111: the geometries of a slice of a grid are those of the grid in that slice, and so is the mask. -/
theorem C111_slice (g : CGrid) (he : g.empty = false) (r0 rows c0 cols : Nat) (hr : r0 + rows ≤ g.rows) (hc : c0 + cols ≤ g.cols)
    (polygons : Bool) (v : GeomVar) (hv : (if polygons then getPolygon g else getPoint g) = .ok v) :
    ∃ f w f', v.value = some f ∧ (if polygons then getPolygon (g.slice r0 rows c0 cols) else getPoint (g.slice r0 rows c0 cols)) = .ok w ∧
      w.name = v.name ∧ w.value = some f' ∧ w.mask = (v.slice r0 c0).mask ∧
      ∀ i j, i < rows → j < cols → f' i j = f (r0 + i) (c0 + j) := by
  have hgv : ∀ h : CGrid, (if polygons then getPolygon h else getPoint h) = geometryVariable h none polygons := by
    intro h; cases polygons <;> rfl
  rw [hgv] at hv
  obtain ⟨mk, hmk, hall⟩ := geometryVariable_inv he hv
  obtain ⟨v', f, h1, h2, h3, h4, h5, h6⟩ := geometryVariable_ok he polygons hmk hall
  rw [hv] at h1
  injection h1 with h1
  subst h1
  have hcm : ∀ i j, CellMasked (g.slice r0 rows c0 cols) i j ↔ CellMasked g (r0 + i) (c0 + j) := by
    intro i j
    unfold CellMasked CGrid.slice
    cases g.mask <;> simp
  obtain ⟨w, f', k1, k2, k3, k4, k5, k6⟩ := geometryVariable_ok (g := g.slice r0 rows c0 cols) he polygons
    (slice_maker hmk r0 rows c0 cols) (fun i j hi hj hm => hall (r0 + i) (c0 + j) (by have : i < rows := hi; omega) (by have : j < cols := hj; omega)
      (fun h => hm ((hcm i j).2 h)))
  refine ⟨f, w, f', h3, by rw [hgv]; exact k1, ?_, k3, ?_, ?_⟩
  · rw [k2, h2, (slice_abstraction g r0 rows c0 cols).1]
  · rw [k4, GeomVar.slice, h4]; rfl
  · intro i j hi hj
    by_cases hm : CellMasked g (r0 + i) (c0 + j)
    · rw [k5 i j ((hcm i j).2 hm), h5 _ _ hm]
    · obtain ⟨d, hd, hf⟩ := h6 (r0 + i) (c0 + j) (by omega) (by omega) hm
      obtain ⟨d', hd', hf'⟩ := k6 i j hi hj (fun h => hm ((hcm i j).1 h))
      rw [hd] at hd'
      injection hd' with hd'
      rw [hf, hf', hd']

example : ∃ v f, getPolygon (cellsDemo.slice 0 2 1 2) = .ok v ∧ v.value = some f ∧
    (f 0 1, f 1 1) = (some (.box (3 / 2) (19 / 2) (5 / 2) (21 / 2)), none) := ⟨_, _, rfl, rfl, by decide +kernel⟩

/-- C111: a mask that is given takes the place of the mask of the grid. -/
theorem C111_given_mask (g : CGrid) (m : Nat → Nat → Bool) :
    getPoint g (some m) = getPoint { g with mask := some m } ∧ getPolygon g (some m) = getPolygon { g with mask := some m } := ⟨rfl, rfl⟩

/-- C111: an empty grid has geometries without values, whatever its coordinates. -/
theorem C111_empty (g : CGrid) (he : g.empty = true) :
    ∃ n, getPoint g = .ok ⟨n, none, none⟩ ∧ getPolygon g = .ok ⟨n, none, none⟩ ∧ getAbstraction g = .ok ⟨n, none, none⟩ := by
  have h : ∀ b, geometryVariable g none b = .ok ⟨if g.abstraction = .point then "ocgis_point" else "ocgis_polygon", none, none⟩ := by
    intro b; simp only [geometryVariable, he, if_true]
  refine ⟨_, h false, h true, ?_⟩
  unfold getAbstraction
  split
  · exact h false
  · exact h true

/-- C111: the points of a grid whose abstraction is `point` are named so, and are its geometries. -/
theorem C111_point_name (g : CGrid) (he : g.empty = false) (ha : g.abstraction = .point) :
    ∃ v, getPoint g = .ok v ∧ getAbstraction g = .ok v ∧ v.name = "ocgis_point" := by
  obtain ⟨v, f, h1, h2, -⟩ := geometryVariable_ok (g := g) he false (mk := fun i j => .ok (center g.coords i j))
    (by simp [maker]) (fun i j _ _ _ => ⟨_, rfl⟩)
  exact ⟨v, h1, by rw [getAbstraction, ha]; exact h1, by rw [h2, ha]; rfl⟩

/-- C111: without a choice a grid has polygons if the y-coordinate has bounds and points otherwise; a choice stays. -/
theorem C111_abstraction (g : CGrid) :
    (g.overload = none → (g.abstraction = .polygon ↔ ∀ i j, (boundsOf g i j).2 ≠ none)) ∧ (∀ a, g.overload = some a → g.abstraction = a) ∧
    (g.overload = none → g.abstraction ∈ g.available) := by
  have hb : g.hasBounds = true ↔ ∀ i j, (boundsOf g i j).2 ≠ none := by
    unfold CGrid.hasBounds boundsOf
    cases g.coords with
    | vector x y => cases h : y.bounds <;> simp [h]
    | matrix x y => cases h : y.bounds <;> simp [h]
  refine ⟨fun h => ?_, fun a h => by rw [CGrid.abstraction, h], fun h => ?_⟩
  · rw [← hb, CGrid.abstraction, h]
    cases g.hasBounds <;> simp
  · unfold CGrid.abstraction CGrid.available
    rw [h]
    cases g.hasBounds <;> simp

/-- C111 is false for a grid whose abstraction is `point`: asked for polygons it gives points, under their name, with bounds or without. -/
theorem C111_polygon_never (g : CGrid) (ha : g.abstraction = .point) (mask : Option (Nat → Nat → Bool)) :
    getPolygon g mask = getPoint g mask := by
  unfold getPolygon getPoint geometryVariable
  have : ∀ m, geometries g m true = geometries g m false := by
    intro m; unfold geometries; simp [ha]
  simp only [this]

example : ({ cellsDemo with overload := some .point } : CGrid).abstraction = .point ∧ cellsDemo.abstraction = .polygon := by decide +kernel

/-- C111 is false for the points of a grid whose abstraction is `polygon`: they never have the name of points, but that of polygons. -/
theorem C111_name_never (g : CGrid) (ha : g.abstraction = .polygon) (v : GeomVar) (h : getPoint g = .ok v) : v.name = "ocgis_polygon" := by
  simp only [getPoint, geometryVariable, ha, reduceCtorEq, if_false] at h
  split at h
  · injection h with h; subst h; rfl
  · split at h
    · cases h
    · injection h with h; subst h; rfl

/-- C111 is false for a grid of which only the y-coordinate has bounds: it says that it has polygons, and they are never made. -/
theorem C111_one_axis_never (g : CGrid) (he : g.empty = false) (ho : g.overload ≠ some .point)
    (hb : ∀ i j, (boundsOf g i j).1 = none ∧ (boundsOf g i j).2 ≠ none) :
    Abst.polygon ∈ g.available ∧ getPolygon g = .error .attributeError ∧ getAbstraction g = .error .attributeError := by
  have h0 := hb 0 0
  have hhb : g.hasBounds = true := by
    unfold boundsOf at h0
    unfold CGrid.hasBounds
    cases hc : g.coords with
    | vector x y => rw [hc] at h0; cases hy : y.bounds <;> simp [hy] at h0 ⊢
    | matrix x y => rw [hc] at h0; cases hy : y.bounds <;> simp [hy] at h0 ⊢
  have hab : g.abstraction = .polygon := by
    unfold CGrid.abstraction
    cases h : g.overload with
    | none => simp [hhb]
    | some a =>
      cases a with
      | polygon => rfl
      | point => exact absurd h ho
  have hgeo : ∀ m, geometries g m true = .error .attributeError := by
    intro m
    unfold geometries
    simp only [if_true, hab, hhb]
    unfold boundsOf at h0
    cases hc : g.coords with
    | vector x y =>
      rw [hc] at h0
      cases hx : x.bounds with
      | some b => simp [hx] at h0
      | none => simp only [hx]
    | matrix x y =>
      rw [hc] at h0
      cases hx : x.bounds with
      | some b => simp [hx] at h0
      | none => simp only [hx]
  have hp : getPolygon g = .error .attributeError := by
    unfold getPolygon geometryVariable
    simp only [he, Bool.false_eq_true, if_false, hgeo]
  refine ⟨by simp [CGrid.available, hhb], hp, ?_⟩
  unfold getAbstraction
  rw [hab]
  exact hp

example : ∀ i j, (boundsOf { cellsDemo with coords := .vector ⟨fun j => j, none⟩ ⟨fun i => i, some fun i => [i, (i : Rat) + 1]⟩ } i j).1 = none ∧
    (boundsOf { cellsDemo with coords := .vector ⟨fun j => j, none⟩ ⟨fun i => i, some fun i => [i, (i : Rat) + 1]⟩ } i j).2 ≠ none := by
  intro i j
  simp [boundsOf]

/-- C111 is false for a grid that is told to be of polygons and has no bounds: this is accepted, and its geometry is never made. -/
theorem C111_overload_never (g : CGrid) (he : g.empty = false) (ho : g.overload = some .polygon) (hb : ∀ i j, (boundsOf g i j).2 = none) :
    getAbstraction g = .error .runtimeError := by
  have hhb : g.hasBounds = false := by
    have h0 := hb 0 0
    unfold boundsOf at h0
    unfold CGrid.hasBounds
    cases hc : g.coords with
    | vector x y => rw [hc] at h0; cases hy : y.bounds <;> simp [hy] at h0 ⊢
    | matrix x y => rw [hc] at h0; cases hy : y.bounds <;> simp [hy] at h0 ⊢
  have hab : g.abstraction = .polygon := by rw [CGrid.abstraction, ho]
  unfold getAbstraction
  rw [hab]
  unfold getPolygon geometryVariable geometries
  simp [he, hab, hhb]

example : getAbstraction { cellsDemo with overload := some .polygon, coords := .vector ⟨fun j => j, none⟩ ⟨fun i => i, none⟩ } = .error .runtimeError :=
  C111_overload_never _ rfl rfl fun _ _ => rfl

/-! ## Assignment -/

/-- What an assignment makes of a coordinate. -/
theorem assign_axis {κ : Type} {a b c : Axis κ} {back : κ → Option κ} (h : a.assign back b = .ok c) :
    (∀ k k', back k = some k' → c.value k = b.value k' ∧ (a.bounds ≠ none → c.bounds.map (· k) = b.bounds.map (· k'))) ∧
    (∀ k, back k = none → c.value k = a.value k ∧ c.bounds.map (· k) = a.bounds.map (· k)) := by
  unfold Axis.assign at h
  cases ha : a.bounds with
  | none =>
    rw [ha] at h
    injection h with h
    subst h
    exact ⟨fun k k' hk => ⟨by simp [hk], fun h => absurd rfl h⟩, fun k hk => ⟨by simp [hk], by simp⟩⟩
  | some f =>
    cases hb : b.bounds with
    | none => rw [ha, hb] at h; cases h
    | some f' =>
      rw [ha, hb] at h
      injection h with h
      subst h
      exact ⟨fun k k' hk => ⟨by simp [hk], fun _ => by simp [hk]⟩, fun k hk => ⟨by simp [hk], by simp [hk]⟩⟩

theorem assign_axis_ok {κ : Type} (a b : Axis κ) (back : κ → Option κ) (h : a.bounds ≠ none → b.bounds ≠ none) : ∃ c, a.assign back b = .ok c := by
  unfold Axis.assign
  cases ha : a.bounds with
  | none => exact ⟨_, rfl⟩
  | some f =>
    cases hb : b.bounds with
    | none => exact absurd hb (h (by rw [ha]; simp))
    | some f' => exact ⟨_, rfl⟩

/-- C111 (the assigned grid has a mask, and bounds if the other has them): the cells of a slice become those of the assigned grid, with
centres, bounds and mask. Other cells stay as they were if coordinates are two-dimensional; otherwise those in other rows and columns do. -/
theorem C111_assign_partial (g h : CGrid) (r0 c0 : Nat) (hkind : IsVector g ↔ IsVector h) (m : Nat → Nat → Bool) (hm : h.mask = some m)
    (hb : ∀ i j, ((boundsOf g i j).1 ≠ none → (boundsOf h i j).1 ≠ none) ∧ ((boundsOf g i j).2 ≠ none → (boundsOf h i j).2 ≠ none)) :
    ∃ g', g.assign r0 c0 h = .ok g' ∧ g'.rows = g.rows ∧ g'.cols = g.cols ∧
      (∀ i j, i < h.rows → j < h.cols → centreOf g' (r0 + i) (c0 + j) = centreOf h i j ∧
        ((boundsOf g i j).1 ≠ none → (boundsOf g' (r0 + i) (c0 + j)).1 = (boundsOf h i j).1) ∧
        ((boundsOf g i j).2 ≠ none → (boundsOf g' (r0 + i) (c0 + j)).2 = (boundsOf h i j).2) ∧
        (CellMasked g' (r0 + i) (c0 + j) ↔ CellMasked h i j)) ∧
      (∀ i j, (¬IsVector g ∧ ¬((r0 ≤ i ∧ i < r0 + h.rows) ∧ (c0 ≤ j ∧ j < c0 + h.cols)) ∨ ¬(r0 ≤ i ∧ i < r0 + h.rows) ∧ ¬(c0 ≤ j ∧ j < c0 + h.cols)) →
        centreOf g' i j = centreOf g i j ∧ boundsOf g' i j = boundsOf g i j ∧ (CellMasked g' i j ↔ CellMasked g i j)) := by
  have hin : ∀ s n k, k < n → back1 s n (s + k) = some k := by
    intro s n k hk
    rw [back1, if_pos ⟨by omega, by omega⟩]
    congr 1; omega
  have hin2 : ∀ i j, i < h.rows → j < h.cols → back2 r0 h.rows c0 h.cols (r0 + i, c0 + j) = some (i, j) := by
    intro i j hi hj
    simp [back2, hin _ _ _ hi, hin _ _ _ hj]
  have hout2 : ∀ i j, ¬((r0 ≤ i ∧ i < r0 + h.rows) ∧ (c0 ≤ j ∧ j < c0 + h.cols)) → back2 r0 h.rows c0 h.cols (i, j) = none := by
    intro i j hn
    unfold back2 back1
    by_cases h1 : r0 ≤ i ∧ i < r0 + h.rows
    · by_cases h2 : c0 ≤ j ∧ j < c0 + h.cols
      · exact absurd ⟨h1, h2⟩ hn
      · simp only [if_pos h1, if_neg h2]
    · simp only [if_neg h1]
  have hmask : ∀ c : Coords, ∀ i j, CellMasked { g with coords := c, mask := some (assignMask g h r0 c0 m) } i j ↔ assignMask g h r0 c0 m i j = true := by
    intro c i j
    simp [CellMasked]
  have hmaskin : ∀ c : Coords, ∀ i j, i < h.rows → j < h.cols →
      (CellMasked { g with coords := c, mask := some (assignMask g h r0 c0 m) } (r0 + i) (c0 + j) ↔ CellMasked h i j) := by
    intro c i j hi hj
    rw [hmask, assignMask, hin2 i j hi hj]
    simp [CellMasked, hm]
  have hmaskout : ∀ c : Coords, ∀ i j, ¬((r0 ≤ i ∧ i < r0 + h.rows) ∧ (c0 ≤ j ∧ j < c0 + h.cols)) →
      (CellMasked { g with coords := c, mask := some (assignMask g h r0 c0 m) } i j ↔ CellMasked g i j) := by
    intro c i j hn
    rw [hmask, assignMask, hout2 i j hn]
    unfold CellMasked
    cases g.mask <;> simp
  cases hg : g.coords with
  | vector x y =>
    obtain ⟨x', y', hh⟩ := hkind.1 ⟨x, y, hg⟩
    have hv : IsVector g := ⟨x, y, hg⟩
    have hb0 := hb 0 0
    simp only [boundsOf, hg, hh, ne_eq, Option.map_eq_none_iff] at hb0
    obtain ⟨a, ha⟩ := assign_axis_ok x x' (back1 c0 h.cols) hb0.1
    obtain ⟨b, hbb⟩ := assign_axis_ok y y' (back1 r0 h.rows) hb0.2
    obtain ⟨a1, a2⟩ := assign_axis ha
    obtain ⟨b1, b2⟩ := assign_axis hbb
    refine ⟨{ g with coords := .vector a b, mask := some (assignMask g h r0 c0 m) }, by simp only [CGrid.assign, hg, hh, ha, hbb, hm], rfl, rfl, ?_, ?_⟩
    · intro i j hi hj
      obtain ⟨e1, e2⟩ := a1 _ _ (hin c0 h.cols j hj)
      obtain ⟨f1, f2⟩ := b1 _ _ (hin r0 h.rows i hi)
      refine ⟨?_, ?_, ?_, hmaskin _ i j hi hj⟩
      · simp [centreOf, hh, e1, f1]
      · intro hne
        simp only [boundsOf, hg, ne_eq, Option.map_eq_none_iff] at hne
        simp only [boundsOf, hh]
        exact e2 hne
      · intro hne
        simp only [boundsOf, hg, ne_eq, Option.map_eq_none_iff] at hne
        simp only [boundsOf, hh]
        exact f2 hne
    · intro i j hn
      obtain ⟨n1, n2⟩ := hn.resolve_left (fun h => h.1 hv)
      have e := a2 j (by rw [back1, if_neg n2])
      have f := b2 i (by rw [back1, if_neg n1])
      exact ⟨by simp [centreOf, hg, e.1, f.1], by simp only [boundsOf, hg, e.2, f.2], hmaskout _ i j (fun h => n1 h.1)⟩
  | matrix x y =>
    have hv : ¬IsVector g := by rintro ⟨p, q, e⟩; rw [hg] at e; cases e
    cases hh : h.coords with
    | vector x' y' => exact absurd (hkind.2 ⟨x', y', hh⟩) hv
    | matrix x' y' =>
      have hb0 := hb 0 0
      simp only [boundsOf, hg, hh, ne_eq, Option.map_eq_none_iff] at hb0
      obtain ⟨a, ha⟩ := assign_axis_ok x x' (back2 r0 h.rows c0 h.cols) hb0.1
      obtain ⟨b, hbb⟩ := assign_axis_ok y y' (back2 r0 h.rows c0 h.cols) hb0.2
      obtain ⟨a1, a2⟩ := assign_axis ha
      obtain ⟨b1, b2⟩ := assign_axis hbb
      refine ⟨{ g with coords := .matrix a b, mask := some (assignMask g h r0 c0 m) }, by simp only [CGrid.assign, hg, hh, ha, hbb, hm], rfl, rfl, ?_, ?_⟩
      · intro i j hi hj
        obtain ⟨e1, e2⟩ := a1 _ _ (hin2 i j hi hj)
        obtain ⟨f1, f2⟩ := b1 _ _ (hin2 i j hi hj)
        refine ⟨?_, ?_, ?_, hmaskin _ i j hi hj⟩
        · simp [centreOf, hh, e1, f1]
        · intro hne
          simp only [boundsOf, hg, ne_eq, Option.map_eq_none_iff] at hne
          simp only [boundsOf, hh]
          exact e2 hne
        · intro hne
          simp only [boundsOf, hg, ne_eq, Option.map_eq_none_iff] at hne
          simp only [boundsOf, hh]
          exact f2 hne
      · intro i j hn
        have n : ¬((r0 ≤ i ∧ i < r0 + h.rows) ∧ (c0 ≤ j ∧ j < c0 + h.cols)) := hn.elim And.right (fun h k => h.1 k.1)
        have e := a2 _ (hout2 i j n)
        have f := b2 _ (hout2 i j n)
        exact ⟨by simp [centreOf, hg, e.1, f.1], by simp only [boundsOf, hg, e.2, f.2], hmaskout _ i j n⟩

/-- One masked cell. -/
def cellsBlock : CGrid :=
  { rows := 1, cols := 1, mask := some fun _ _ => true,
    coords := .vector ⟨fun _ => 7, some fun _ => [6, 8]⟩ ⟨fun _ => 5, some fun _ => [4, 6]⟩ }

example : ∃ g', cellsDemo.assign 1 1 cellsBlock = .ok g' ∧
    (centreOf g' 1 1, centreOf g' 0 0) = ((7, 5), (0, 10)) := ⟨_, rfl, by decide +kernel⟩

/-- C111 is false for an assigned grid that has no mask: cells that were masked stay masked, though their coordinates are new. -/
theorem C111_assign_mask_never (g h g' : CGrid) (r0 c0 : Nat) (ha : g.assign r0 c0 h = .ok g') (hm : h.mask = none) (i j : Nat) :
    CellMasked g' (r0 + i) (c0 + j) ↔ CellMasked g (r0 + i) (c0 + j) := by
  unfold CGrid.assign at ha
  simp only [hm] at ha
  split at ha
  · cases ha
  · injection ha with ha
    subst ha
    rfl

/-- C111 is false for one-dimensional coordinates: cells of the same columns outside the slice get new coordinates, too. -/
theorem C111_assign_vector_never (g h g' : CGrid) (r0 c0 : Nat) (hv : IsVector g) (ha : g.assign r0 c0 h = .ok g') (i j : Nat) (hj : j < h.cols) :
    (centreOf g' i (c0 + j)).1 = (centreOf h i j).1 := by
  obtain ⟨x, y, hg⟩ := hv
  unfold CGrid.assign at ha
  rw [hg] at ha
  cases hh : h.coords with
  | matrix x' y' => rw [hh] at ha; cases ha
  | vector x' y' =>
    rw [hh] at ha
    simp only at ha
    cases hx : x.assign (back1 c0 h.cols) x' with
    | error e => rw [hx] at ha; cases ha
    | ok a =>
      cases hy : y.assign (back1 r0 h.rows) y' with
      | error e => rw [hx, hy] at ha; cases ha
      | ok b =>
        rw [hx, hy] at ha
        injection ha with ha
        subst ha
        have := ((assign_axis hx).1 (c0 + j) j (by rw [back1, if_pos ⟨by omega, by omega⟩]; congr 1; omega)).1
        simp [centreOf, hh, this]

example : ∃ g', cellsDemo.assign 1 1 cellsBlock = .ok g' ∧
    centreOf cellsDemo 0 1 = (1, 10) ∧ centreOf g' 0 1 = (7, 10) := ⟨_, rfl, by decide +kernel, by decide +kernel⟩

/-- C111 is false for a grid with bounds that is assigned one without: it always fails. -/
theorem C111_assign_bounds_never (g h : CGrid) (r0 c0 : Nat) (hb : ∀ i j, (boundsOf g i j).1 ≠ none ∧ (boundsOf h i j).1 = none) :
    ∃ e, g.assign r0 c0 h = .error e := by
  have h0 := hb 0 0
  unfold CGrid.assign
  cases hg : g.coords with
  | vector x y =>
    cases hh : h.coords with
    | matrix x' y' => exact ⟨_, rfl⟩
    | vector x' y' =>
      simp only [boundsOf, hg, hh, ne_eq, Option.map_eq_none_iff] at h0
      obtain ⟨f, hf⟩ := Option.ne_none_iff_exists'.1 h0.1
      exact ⟨.attributeError, by simp [Axis.assign, hf, h0.2]⟩
  | matrix x y =>
    cases hh : h.coords with
    | vector x' y' => exact ⟨_, rfl⟩
    | matrix x' y' =>
      simp only [boundsOf, hg, hh, ne_eq, Option.map_eq_none_iff] at h0
      obtain ⟨f, hf⟩ := Option.ne_none_iff_exists'.1 h0.1
      exact ⟨.attributeError, by simp [Axis.assign, hf, h0.2]⟩

example : ∃ e, cellsDemo.assign 0 0 { cellsBlock with coords := .vector ⟨fun _ => 7, none⟩ ⟨fun _ => 5, none⟩ } = .error e :=
  C111_assign_bounds_never _ _ 0 0 fun i j => ⟨by simp [boundsOf, cellsDemo], rfl⟩

end Ocgis.Props
