import Verif.Spec.GridCells
/-!
# Lemmas on the cells of a grid
-/
namespace Ocgis.Proofs.GridCells
open Ocgis.GridCells Ocgis.Spec

theorem min_cases (a b : Rat) : min a b ≤ a ∧ min a b ≤ b ∧ (min a b = a ∨ min a b = b) := by
  have : min a b = if a ≤ b then a else b := rfl
  rw [this]
  split <;> grind

theorem max_cases (a b : Rat) : a ≤ max a b ∧ b ≤ max a b ∧ (max a b = a ∨ max a b = b) := by
  have : max a b = if a ≤ b then b else a := rfl
  rw [this]
  split <;> grind

theorem foldl_min (l : List Rat) : ∀ a, (l.foldl min a = a ∨ l.foldl min a ∈ l) ∧ l.foldl min a ≤ a ∧ ∀ b ∈ l, l.foldl min a ≤ b := by
  induction l with
  | nil => intro a; simp
  | cons c l ih =>
    intro a
    obtain ⟨h1, h2, h3⟩ := ih (min a c)
    obtain ⟨m1, m2, m3⟩ := min_cases a c
    simp only [List.foldl_cons, List.mem_cons]
    refine ⟨?_, Rat.le_trans h2 m1, ?_⟩
    · rcases h1 with h1 | h1
      · rcases m3 with m3 | m3
        · exact .inl (h1.trans m3)
        · exact .inr (.inl (h1.trans m3))
      · exact .inr (.inr h1)
    · rintro b (rfl | hb)
      · exact Rat.le_trans h2 m2
      · exact h3 b hb

theorem foldl_max (l : List Rat) : ∀ a, (l.foldl max a = a ∨ l.foldl max a ∈ l) ∧ a ≤ l.foldl max a ∧ ∀ b ∈ l, b ≤ l.foldl max a := by
  induction l with
  | nil => intro a; simp
  | cons c l ih =>
    intro a
    obtain ⟨h1, h2, h3⟩ := ih (max a c)
    obtain ⟨m1, m2, m3⟩ := max_cases a c
    simp only [List.foldl_cons, List.mem_cons]
    refine ⟨?_, Rat.le_trans m1 h2, ?_⟩
    · rcases h1 with h1 | h1
      · rcases m3 with m3 | m3
        · exact .inl (h1.trans m3)
        · exact .inr (.inl (h1.trans m3))
      · exact .inr (.inr h1)
    · rintro b (rfl | hb)
      · exact Rat.le_trans m2 h2
      · exact h3 b hb

theorem hull_of (l : List Rat) (h : l ≠ []) : ∃ a b, npMin l = .ok a ∧ npMax l = .ok b ∧ Hull l a b := by
  cases l with
  | nil => exact absurd rfl h
  | cons c l =>
    obtain ⟨h1, h2, h3⟩ := foldl_min l c
    obtain ⟨k1, k2, k3⟩ := foldl_max l c
    refine ⟨_, _, rfl, rfl, ?_, ?_, ?_⟩
    · rcases h1 with h1 | h1
      · rw [h1]; simp
      · exact List.mem_cons_of_mem _ h1
    · rcases k1 with k1 | k1
      · rw [k1]; simp
      · exact List.mem_cons_of_mem _ k1
    · intro a ha
      rcases List.mem_cons.1 ha with rfl | ha
      · exact ⟨h2, k2⟩
      · exact ⟨h3 a ha, k3 a ha⟩

theorem hull_unique {l : List Rat} {a b c d : Rat} (h : Hull l a b) (k : Hull l c d) : a = c ∧ b = d :=
  ⟨Rat.le_antisymm (h.2.2 c k.1).1 (k.2.2 a h.1).1, Rat.le_antisymm (k.2.2 b h.2.1).2 (h.2.2 d k.2.1).2⟩

theorem boxOf_ok (xs ys : List Rat) (hx : xs ≠ []) (hy : ys ≠ []) :
    ∃ a b p q, boxOf xs ys = .ok (.box a p b q) ∧ Hull xs a b ∧ Hull ys p q := by
  obtain ⟨a, b, h1, h2, h3⟩ := hull_of xs hx
  obtain ⟨p, q, k1, k2, k3⟩ := hull_of ys hy
  exact ⟨a, b, p, q, by simp [boxOf, h1, h2, k1, k2], h3, k3⟩

theorem ringOf_ok (xs ys : List Rat) (h : xs.length = ys.length) (h3 : 3 ≤ xs.length) : ringOf xs ys = .ok (.ring (xs.zip ys)) := by
  rw [ringOf, if_neg (fun k => k h), if_neg (by omega)]

theorem mem_product (r c : Nat) (k : Nat × Nat) : k ∈ product r c ↔ k.1 < r ∧ k.2 < c := by
  obtain ⟨i, j⟩ := k
  simp [product]

/-- The loop gives the element of every cell. -/
theorem loop_ok (hint : Option (Nat → Nat → Bool)) (make : Nat → Nat → Res Geom) : ∀ l : List (Nat × Nat),
    (∀ k ∈ l, (hint.getD fun _ _ => false) k.1 k.2 = true ∨ ∃ c, make k.1 k.2 = .ok c) →
    ∃ out, loop hint make l = .ok out ∧ out.map Prod.fst = l ∧ ∀ k c, (k, c) ∈ out →
      ((hint.getD fun _ _ => false) k.1 k.2 = true → c = none) ∧
      ((hint.getD fun _ _ => false) k.1 k.2 = false → ∃ d, c = some d ∧ make k.1 k.2 = .ok d) := by
  intro l
  induction l with
  | nil => intro _; exact ⟨[], rfl, rfl, fun k c h => (by cases h)⟩
  | cons k l ih =>
    intro h
    obtain ⟨i, j⟩ := k
    obtain ⟨out, h1, h2, h3⟩ := ih (fun k hk => h k (List.mem_cons_of_mem _ hk))
    by_cases hh : (hint.getD fun _ _ => false) i j = true
    · refine ⟨((i, j), none) :: out, ?_, by simp [h2], ?_⟩
      · simp only [loop, if_pos hh, h1]
      · intro k c hk
        rcases List.mem_cons.1 hk with hk | hk
        · cases hk
          exact ⟨fun _ => rfl, fun e => by simp only at e; rw [hh] at e; cases e⟩
        · exact h3 k c hk
    · obtain ⟨d, hd⟩ := (h (i, j) (by simp)).resolve_left hh
      simp only at hd
      refine ⟨((i, j), some d) :: out, ?_, by simp [h2], ?_⟩
      · simp only [loop, if_neg hh, hd, Except.map, h1]
      · intro k c hk
        rcases List.mem_cons.1 hk with hk | hk
        · cases hk
          exact ⟨fun e => absurd e hh, fun _ => ⟨d, rfl, hd⟩⟩
        · exact h3 k c hk

theorem loop_error (hint : Option (Nat → Nat → Bool)) (make : Nat → Nat → Res Geom) (k : Nat × Nat) : ∀ l : List (Nat × Nat),
    k ∈ l → (hint.getD fun _ _ => false) k.1 k.2 = false → (∃ e, make k.1 k.2 = .error e) → ∃ e, loop hint make l = .error e := by
  intro l
  induction l with
  | nil => intro h; cases h
  | cons d l ih =>
    intro h hh hm
    obtain ⟨i, j⟩ := d
    rcases List.mem_cons.1 h with rfl | h
    · obtain ⟨e, he⟩ := hm
      simp only at hh he
      exact ⟨e, by simp [loop, hh, he, Except.map]⟩
    · obtain ⟨e, he⟩ := ih h hh hm
      unfold loop
      split
      · exact ⟨_, rfl⟩
      · rw [he]; exact ⟨e, rfl⟩

/-- The array filled by the loop. -/
theorem fill_get : ∀ (l : List ((Nat × Nat) × Option Geom)) (f : Nat → Nat → Option Geom) (i j : Nat),
    (∀ k c, (k, c) ∈ l → k = (i, j) → c = none) → fill l f i j = f i j := by
  intro l
  induction l with
  | nil => intro f i j _; rfl
  | cons e l ih =>
    intro f i j h
    obtain ⟨⟨a, b⟩, c⟩ := e
    have hrest := fun f => ih f i j (fun k c hk => h k c (List.mem_cons_of_mem _ hk))
    cases c with
    | none => rw [fill, hrest]
    | some d =>
      rw [fill, hrest, if_neg]
      rintro ⟨rfl, rfl⟩
      have := h (i, j) (some d) (by simp) rfl
      cases this

theorem fill_some : ∀ (l : List ((Nat × Nat) × Option Geom)) (f : Nat → Nat → Option Geom) (i j : Nat) (d : Geom),
    ((i, j), some d) ∈ l → (∀ c, ((i, j), c) ∈ l → c = some d) → fill l f i j = some d := by
  intro l
  induction l with
  | nil => intro f i j d h; cases h
  | cons e l ih =>
    intro f i j d hm hu
    obtain ⟨⟨a, b⟩, c⟩ := e
    by_cases hin : ((i, j), some d) ∈ l
    · have hrest := fun f => ih f i j d hin (fun c hc => hu c (List.mem_cons_of_mem _ hc))
      cases c with
      | none => rw [fill, hrest]
      | some d' => rw [fill, hrest]
    · rcases List.mem_cons.1 hm with hm | hm
      · cases hm
        rw [fill, fill_get, if_pos ⟨rfl, rfl⟩]
        intro k c hk hke
        subst hke
        exact absurd (hu c (List.mem_cons_of_mem _ hk) ▸ hk) hin
      · exact absurd hm hin

/-- Geometries made cell by cell. -/
theorem fill_loop {g : CGrid} {hint : Option (Nat → Nat → Bool)} {make : Nat → Nat → Res Geom}
    (hmake : ∀ i j, i < g.rows → j < g.cols → (hint.getD fun _ _ => false) i j = false → ∃ c, make i j = .ok c) :
    ∃ out, loop hint make (product g.rows g.cols) = .ok out ∧
      (∀ i j, (hint.getD fun _ _ => false) i j = true → fill out (fun _ _ => none) i j = none) ∧
      (∀ i j, i < g.rows → j < g.cols → (hint.getD fun _ _ => false) i j = false →
        ∃ d, make i j = .ok d ∧ fill out (fun _ _ => none) i j = some d) := by
  obtain ⟨out, h1, h2, h3⟩ := loop_ok hint make (product g.rows g.cols) (by
    intro k hk
    obtain ⟨hk1, hk2⟩ := (mem_product _ _ _).1 hk
    cases hh : (hint.getD fun _ _ => false) k.1 k.2 with
    | true => exact .inl rfl
    | false => exact .inr (hmake k.1 k.2 hk1 hk2 hh))
  refine ⟨out, h1, ?_, ?_⟩
  · intro i j hh
    refine fill_get out _ i j ?_
    rintro k c hk rfl
    exact (h3 _ _ hk).1 hh
  · intro i j hi hj hh
    have hin : (i, j) ∈ out.map Prod.fst := by rw [h2]; exact (mem_product _ _ _).2 ⟨hi, hj⟩
    obtain ⟨⟨k, c⟩, hk, rfl⟩ := List.mem_map.1 hin
    obtain ⟨d, rfl, hd⟩ := (h3 _ _ hk).2 hh
    refine ⟨d, hd, fill_some out _ i j d hk ?_⟩
    intro c hc
    obtain ⟨d', rfl, hd'⟩ := (h3 _ _ hc).2 hh
    simp only at hd hd'
    rw [hd] at hd'
    injection hd' with hd'
    rw [hd']

/-- How the geometry of a cell is made. -/
def maker (g : CGrid) (useBounds : Bool) : Res (Nat → Nat → Res Geom) :=
  match (if useBounds then g.abstraction else .point) with
  | .point => .ok fun i j => .ok (center g.coords i j)
  | .polygon =>
    if g.hasBounds then match g.coords with
      | .vector x y => match x.bounds, y.bounds with
        | some xb, some yb => .ok fun i j => boxOf (xb j) (yb i)
        | _, _ => .error .attributeError
      | .matrix x y => match x.bounds, y.bounds with
        | some xb, some yb => .ok fun i j => ringOf (xb (i, j)) (yb (i, j))
        | _, _ => .error .attributeError
    else .error .runtimeError

theorem geometries_eq (g : CGrid) (hint : Option (Nat → Nat → Bool)) (ub : Bool) :
    geometries g hint ub = match maker g ub with
      | .error e => .error e
      | .ok mk => loop hint mk (product g.rows g.cols) := by
  unfold geometries maker
  cases (if ub then g.abstraction else .point : Abst) with
  | point => rfl
  | polygon =>
    simp only
    by_cases hb : g.hasBounds = true
    · rw [if_pos hb, if_pos hb]
      cases g.coords with
      | vector x y => simp only; cases x.bounds <;> cases y.bounds <;> rfl
      | matrix x y => simp only; cases x.bounds <;> cases y.bounds <;> rfl
    · rw [if_neg hb, if_neg hb]

/-- The mask used. -/
theorem geometryVariable_ok {g : CGrid} (he : g.empty = false) (ub : Bool) {mk : Nat → Nat → Res Geom} (hm : maker g ub = .ok mk)
    (hmake : ∀ i j, i < g.rows → j < g.cols → ¬CellMasked g i j → ∃ c, mk i j = .ok c) :
    ∃ v f, geometryVariable g none ub = .ok v ∧ v.name = (if g.abstraction = .point then "ocgis_point" else "ocgis_polygon") ∧
      v.value = some f ∧ v.mask = g.mask ∧ (∀ i j, CellMasked g i j → f i j = none) ∧
      (∀ i j, i < g.rows → j < g.cols → ¬CellMasked g i j → ∃ d, mk i j = .ok d ∧ f i j = some d) := by
  have hc : ∀ i j, (g.mask.getD fun _ _ => false) i j = true ↔ CellMasked g i j := by
    intro i j
    unfold CellMasked
    cases g.mask <;> simp
  obtain ⟨out, h1, h2, h3⟩ := fill_loop (g := g) (hint := g.mask) (make := mk) (by
    intro i j hi hj hh
    exact hmake i j hi hj (fun h => by rw [(hc i j).2 h] at hh; cases hh))
  refine ⟨⟨if g.abstraction = .point then "ocgis_point" else "ocgis_polygon", some (fill out fun _ _ => none), g.mask⟩, _, ?_, rfl, rfl, rfl, fun i j h => h2 i j ((hc i j).2 h), fun i j hi hj h => ?_⟩
  · simp [geometryVariable, he, geometries_eq, hm, h1]
  · refine h3 i j hi hj ?_
    cases hh : (g.mask.getD fun _ _ => false) i j with
    | true => exact absurd ((hc i j).1 hh) h
    | false => rfl

/-- What was made could be made. -/
theorem geometryVariable_inv {g : CGrid} (he : g.empty = false) {ub : Bool} {v : GeomVar} (h : geometryVariable g none ub = .ok v) :
    ∃ mk, maker g ub = .ok mk ∧ ∀ i j, i < g.rows → j < g.cols → ¬CellMasked g i j → ∃ c, mk i j = .ok c := by
  simp only [geometryVariable, he, Bool.false_eq_true, if_false, geometries_eq] at h
  cases hm : maker g ub with
  | error e => rw [hm] at h; cases h
  | ok mk =>
    refine ⟨mk, rfl, fun i j hi hj hn => ?_⟩
    rw [hm] at h
    cases hk : mk i j with
    | ok c => exact ⟨c, rfl⟩
    | error e =>
      obtain ⟨e', he'⟩ := loop_error g.mask mk (i, j) (product g.rows g.cols) ((mem_product _ _ _).2 ⟨hi, hj⟩) (by
        cases hmask : g.mask with
        | none => rfl
        | some m =>
          cases hmm : m i j with
          | false => simpa using hmm
          | true => exact absurd ⟨m, hmask, hmm⟩ hn) ⟨e, hk⟩
      simp only [he'] at h
      cases h

theorem slice_abstraction (g : CGrid) (r0 rows c0 cols : Nat) : (g.slice r0 rows c0 cols).abstraction = g.abstraction ∧
    (g.slice r0 rows c0 cols).hasBounds = g.hasBounds := by
  have h : (g.slice r0 rows c0 cols).hasBounds = g.hasBounds := by
    unfold CGrid.slice CGrid.hasBounds
    cases g.coords <;> simp [Axis.shift]
  refine ⟨?_, h⟩
  unfold CGrid.abstraction
  rw [h]; rfl

theorem slice_maker {g : CGrid} {ub : Bool} {mk : Nat → Nat → Res Geom} (h : maker g ub = .ok mk) (r0 rows c0 cols : Nat) :
    maker (g.slice r0 rows c0 cols) ub = .ok fun i j => mk (r0 + i) (c0 + j) := by
  obtain ⟨e1, e2⟩ := slice_abstraction g r0 rows c0 cols
  unfold maker at h ⊢
  rw [e1, e2]
  revert h
  cases (if ub then g.abstraction else .point : Abst) with
  | point =>
    intro h
    simp only at h ⊢
    injection h with h
    subst h
    unfold CGrid.slice
    cases g.coords <;> rfl
  | polygon =>
    intro h
    simp only at h ⊢
    by_cases hb : g.hasBounds = true
    · rw [if_pos hb] at h ⊢
      cases hc : g.coords with
      | vector x y =>
        rw [hc] at h
        simp only [CGrid.slice, hc, Axis.shift] at h ⊢
        cases hx : x.bounds <;> cases hy : y.bounds <;> simp only [hx, hy, Option.map_some, Option.map_none] at h ⊢
        all_goals first | (cases h; done) | (injection h with h; subst h; rfl)
      | matrix x y =>
        rw [hc] at h
        simp only [CGrid.slice, hc, Axis.shift] at h ⊢
        cases hx : x.bounds <;> cases hy : y.bounds <;> simp only [hx, hy, Option.map_some, Option.map_none] at h ⊢
        all_goals first | (cases h; done) | (injection h with h; subst h; rfl)
    · rw [if_neg hb] at h; cases h

/-! ## Tiling -/

theorem rising_mono {n : Nat} {lo hi : Nat → Rat} (h : ∀ k, k < n → lo k < hi k) (hs : ∀ k, k + 1 < n → hi k = lo (k + 1)) :
    ∀ j i, i < j → j < n → hi i ≤ lo j := by
  intro j
  induction j with
  | zero => intro i hi; omega
  | succ j ih =>
    intro i hi' hj
    by_cases e : i = j
    · subst e; rw [hs i hj]; exact Rat.le_refl
    · have h1 := ih i (by omega) (by omega)
      have h2 := h j (by omega)
      have h3 := hs j hj
      grind

theorem falling_mono {n : Nat} {lo hi : Nat → Rat} (h : ∀ k, k < n → lo k < hi k) (hs : ∀ k, k + 1 < n → lo k = hi (k + 1)) :
    ∀ j i, i < j → j < n → hi j ≤ lo i := by
  intro j
  induction j with
  | zero => intro i hi; omega
  | succ j ih =>
    intro i hi' hj
    by_cases e : i = j
    · subst e; rw [hs i hj]; exact Rat.le_refl
    · have h1 := ih i (by omega) (by omega)
      have h2 := h j (by omega)
      have h3 := hs j hj
      grind

theorem contiguous_unique {n : Nat} {lo hi : Nat → Rat} (hc : Abutting n lo hi) (x : Rat) (i j : Nat) (hi' : i < n) (hj : j < n)
    (h1 : lo i ≤ x ∧ x < hi i) (h2 : lo j ≤ x ∧ x < hi j) : i = j := by
  obtain ⟨h, hs | hs⟩ := hc
  · rcases Nat.lt_trichotomy i j with hlt | rfl | hgt
    · have := rising_mono h hs j i hlt hj; grind
    · rfl
    · have := rising_mono h hs i j hgt hi'; grind
  · rcases Nat.lt_trichotomy i j with hlt | rfl | hgt
    · have := falling_mono h hs j i hlt hj; grind
    · rfl
    · have := falling_mono h hs i j hgt hi'; grind

theorem contiguous_exists {n : Nat} {lo hi : Nat → Rat} (hc : Abutting n lo hi) (x : Rat) (hlo : ∃ k, k < n ∧ lo k ≤ x)
    (hhi : ∃ k, k < n ∧ x < hi k) : ∃ k, k < n ∧ lo k ≤ x ∧ x < hi k := by
  induction n with
  | zero => obtain ⟨k, hk, -⟩ := hlo; omega
  | succ n ih =>
    obtain ⟨h, hs⟩ := hc
    by_cases hlast : lo n ≤ x ∧ x < hi n
    · exact ⟨n, by omega, hlast⟩
    · have hn : n ≠ 0 := by
        rintro rfl
        obtain ⟨k, hk, h1⟩ := hlo
        obtain ⟨l, hl, h2⟩ := hhi
        have : k = 0 := by omega
        have : l = 0 := by omega
        subst_vars
        exact hlast ⟨h1, h2⟩
      obtain ⟨m, rfl⟩ := Nat.exists_eq_succ_of_ne_zero hn
      have hc' : Abutting (m + 1) lo hi := ⟨fun k hk => h k (by omega), hs.imp (fun hs k hk => hs k (by omega)) (fun hs k hk => hs k (by omega))⟩
      have hlen := h (m + 1) (by omega)
      have hlm := h m (by omega)
      obtain ⟨k, hk, h1⟩ := hlo
      obtain ⟨l, hl, h2⟩ := hhi
      have lo' : ∃ k, k < m + 1 ∧ lo k ≤ x := by
        by_cases e : k = m + 1
        · subst e
          rcases hs with hs | hs
          · have := hs m (by omega)
            exact ⟨m, by omega, by grind⟩
          · have := hs m (by omega)
            exact ⟨m, by omega, by grind⟩
        · exact ⟨k, by omega, h1⟩
      have hi' : ∃ k, k < m + 1 ∧ x < hi k := by
        by_cases e : l = m + 1
        · subst e
          rcases hs with hs | hs
          · have := hs m (by omega)
            exact ⟨m, by omega, by grind⟩
          · have := hs m (by omega)
            exact ⟨m, by omega, by grind⟩
        · exact ⟨l, by omega, h2⟩
      obtain ⟨j, hj, hjj⟩ := ih hc' lo' hi'
      exact ⟨j, by omega, hjj⟩

end Ocgis.Proofs.GridCells
