import Verif.Proofs.CoordTransform
/-!
# C83: transforming coordinates
-/
namespace Ocgis.Props
open Ocgis Ocgis.CoordTransform Ocgis.Spec

/-- **C83.** The Cartesian coordinates of a point have its level as the distance from the origin, and the angle between two points is their
angle on the sphere (spherical law of cosines). -/
theorem C83_cartesian (ps : List Pt) (h : ∀ p ∈ ps, p.x ≤ 180) :
    ∃ qs : List Pt, transformCoordinates false .cartesian false ps = .ok qs ∧ qs.length = ps.length ∧
      (∀ (i : Nat) (p q : Pt), ps[i]? = some p → qs[i]? = some q → q.x ^ 2 + q.y ^ 2 + q.z ^ 2 = p.z ^ 2) ∧
      ∀ (i j : Nat) (p q a b : Pt), ps[i]? = some p → ps[j]? = some q → qs[i]? = some a → qs[j]? = some b →
        a.x * b.x + a.y * b.y + a.z * b.z =
          p.z * q.z * (Real.sin (p.y * Real.pi / 180) * Real.sin (q.y * Real.pi / 180) +
            Real.cos (p.y * Real.pi / 180) * Real.cos (q.y * Real.pi / 180) * Real.cos ((p.x - q.x) * Real.pi / 180)) := by
  refine ⟨ps.map (toCart false), ?_, by simp, ?_, ?_⟩
  · unfold transformCoordinates
    rw [if_neg (by simp), if_neg (by decide), if_neg]
    rintro ⟨_, p, hp, h2⟩
    exact absurd h2 (not_lt.2 (h p hp))
  · intro i p q hp hq
    rw [List.getElem?_map, hp] at hq
    cases hq
    have := cartesian_dot (isCartesian_toCart p) (isCartesian_toCart p)
    have hc := Real.sin_sq_add_cos_sq (p.y * Real.pi / 180)
    rw [sub_self, zero_mul, zero_div, Real.cos_zero, mul_one, ← sq, ← sq, ← sq, ← sq, ← sq, ← sq, hc, mul_one] at this
    exact this
  · intro i j p q a b hp hq ha hb
    rw [List.getElem?_map, hp] at ha
    rw [List.getElem?_map, hq] at hb
    cases ha; cases hb
    exact cartesian_dot (isCartesian_toCart p) (isCartesian_toCart q)

example : ∀ p ∈ [(⟨180, 45, 2⟩ : Pt), ⟨-30, -80, 6371⟩], p.x ≤ 180 := by simp; norm_num

/-- **C83.** Spherical or tripole coordinates transformed to Cartesian coordinates are the same points, centres and corners, and transformed
back they are the same coordinates. -/
theorem C83_cartesian_and_back (E : Ext) (c : Crs) (hc : (∃ r, c = .spherical r false) ∨ c = .tripole false) (g : Grid)
    (hg : FullGrid (PtInRange false) g) :
    ∃ g', updateGrid E (some c) (some .cartesian) none g = ((g', some .cartesian), none) ∧
      List.Forall₂ IsCartesian (allPoints g) (allPoints g') ∧
      updateGrid E (some .cartesian) (some c) none g' = ((g, some c), none) := by
  refine ⟨mapGrid (toCart false) g, ?_, by rw [allPoints_mapGrid hg]; exact forall₂_toCart _, ?_⟩
  · unfold updateGrid
    rw [gridValues_to E hc hg (inRange_points hg)]
    rfl
  · unfold updateGrid
    rw [gridValues_from E hc (mapGrid_full hg (ok' := fun _ => True) (fun _ _ => trivial)), mapGrid_back hg (fun p hp => fromCart_toCart hp)]
    rcases hc with ⟨r, h⟩ | h <;> subst h <;> rfl

example : FullGrid (PtInRange false) ⟨[(180, 45), (-30, -80)], some [2, 6371], some [(179, 44)], some [2]⟩ := by
  refine ⟨⟨_, rfl, rfl, ?_⟩, Or.inr ⟨_, _, rfl, rfl, rfl, ?_⟩⟩
  · intro p hp
    simp only [List.zip_cons_cons, List.zip_nil_left, List.mem_cons, List.not_mem_nil, or_false] at hp
    rcases hp with rfl | rfl <;> unfold PtInRange <;> norm_num
  · intro p hp
    simp only [List.zip_cons_cons, List.zip_nil_left, List.mem_cons, List.not_mem_nil, or_false] at hp
    subst hp
    unfold PtInRange
    norm_num

/-- **C83.** Cartesian coordinates transformed to spherical or tripole coordinates and back are the same, unless a point is the origin. -/
theorem C83_from_cartesian_and_back (E : Ext) (c : Crs) (hc : (∃ r, c = .spherical r false) ∨ c = .tripole false)
    (g : Grid) (hg : FullGrid (fun p => p.x ≠ 0 ∨ p.y ≠ 0 ∨ p.z ≠ 0) g) :
    ∃ g', updateGrid E (some .cartesian) (some c) none g = ((g', some c), none) ∧
      List.Forall₂ IsCartesian (allPoints g') (allPoints g) ∧
      updateGrid E (some c) (some .cartesian) none g' = ((g, some .cartesian), none) := by
  have hfull : FullGrid (fun p => p.x ≤ 180) (mapGrid (fromCart false) g) := mapGrid_full hg (fun p _ => fromCart_x_le p)
  have hnu : ¬ Unwrapped (some c) ((mapGrid (fromCart false) g).points.map Prod.fst) := by
    rintro ⟨_, x, hx, h⟩
    obtain ⟨p, hp, rfl⟩ := List.mem_map.1 hx
    obtain ⟨q, hq, rfl⟩ := List.mem_map.1 hp
    obtain ⟨a, _, rfl⟩ := List.mem_map.1 hq
    exact absurd h (not_lt.2 (fromCart_x_le a))
  refine ⟨mapGrid (fromCart false) g, ?_, ?_, ?_⟩
  · unfold updateGrid
    rw [gridValues_from E hc hg]
    rcases hc with ⟨r, h⟩ | h <;> subst h <;> rfl
  · have h3 := forall₂_toCart (allPoints (mapGrid (fromCart false) g))
    rwa [← allPoints_mapGrid hfull, mapGrid_back hg (fun p hp => toCart_fromCart false hp)] at h3
  · have h2 : gridValues E (some c) (some .cartesian) none (mapGrid (fromCart false) g) =
        .ok (mapGrid (toCart false) (mapGrid (fromCart false) g)) := by
      unfold gridValues
      simp only [Option.none_or, or_true, if_true]
      have := sphericalTransformGrid_to (radians := false) hfull hnu (fun _ p h => h)
      rcases hc with ⟨r, h⟩ | h <;> subst h <;> exact this
    unfold updateGrid
    rw [h2, mapGrid_back hg (fun p hp => toCart_fromCart false hp)]
    rfl

example : FullGrid (fun p => p.x ≠ 0 ∨ p.y ≠ 0 ∨ p.z ≠ 0) ⟨[(3, 4), (0, 0)], some [0, -7], some [(1, 1)], some [2]⟩ := by
  refine ⟨⟨_, rfl, rfl, ?_⟩, Or.inr ⟨_, _, rfl, rfl, rfl, ?_⟩⟩ <;>
  · intro p hp
    simp only [List.zip_cons_cons, List.zip_nil_left, List.mem_cons, List.not_mem_nil, or_false] at hp
    rcases hp with rfl | rfl <;> norm_num

/-- **C83.** A grid in radians can be transformed to Cartesian coordinates, but transforming one to a system in radians fails after the
coordinates were replaced. -/
theorem C83_radians_counterexample (E : Ext) (c : Crs) (hc : (∃ r, c = .spherical r true) ∨ c = .tripole true) (g : Grid)
    (hg : FullGrid (PtInRange true) g) (hu : ∀ p ∈ g.points, p.1 ≤ 180) :
    ∃ g', updateGrid E (some c) (some .cartesian) none g = ((g', some .cartesian), none) ∧
      updateGrid E (some .cartesian) (some c) none g' = ((g, some c), some .valueError) := by
  refine ⟨mapGrid (toCart true) g, ?_, ?_⟩
  · unfold updateGrid
    rw [gridValues_to E hc hg hu]
    rfl
  · unfold updateGrid
    rw [gridValues_from E hc (mapGrid_full hg (ok' := fun _ => True) (fun _ _ => trivial)), mapGrid_back hg (fun p hp => fromCart_toCart hp)]
    rcases hc with ⟨r, h⟩ | h <;> subst h <;> rfl

example : FullGrid (PtInRange true) ⟨[(1, -1/2)], some [2], none, none⟩ := by
  refine ⟨⟨_, rfl, rfl, ?_⟩, Or.inl ⟨rfl, rfl⟩⟩
  intro p hp
  simp only [List.zip_cons_cons, List.zip_nil_left, List.mem_cons, List.not_mem_nil, or_false] at hp
  subst hp
  unfold PtInRange
  have := Real.two_le_pi
  simp only [if_true]
  refine ⟨?_, ?_, ?_, ?_, ?_⟩ <;> linarith

/-- **C83.** A grid transformed between coordinate systems keeps the place of every centre and corner; its levels stay.  Corners are removed
if one of the systems has a rotated pole.  What is missing: rotated poles with other systems than spheres (`C83_pole_projected_counterexample`),
and an origin that differs from the grid's own (`C83_origin_counterexample`). -/
theorem C83_places_partial {α : Type} (E : Ext) (place : Crs → ℝ × ℝ → α) (hE : Faithful E place) (a b : Crs) (hab : CanTransform a b)
    (g : Grid) :
    ∃ g', updateGrid E (some a) (some b) none g = ((g', some b), none) ∧ g'.points.map (place b) = g.points.map (place a) ∧
      g'.levels = g.levels ∧
      (Known a → Known b → g'.corners.map (fun cs => cs.map (place b)) = g.corners.map (fun cs => cs.map (place a)) ∧
        g'.cornerLevels = g.cornerLevels) ∧
      (g'.corners ≠ none → g'.corners.map (fun cs => cs.map (place b)) = g.corners.map (fun cs => cs.map (place a))) := by
  obtain ⟨hna, hnb⟩ := canTransform_ne hab
  have hf := canTransform_format hab
  unfold updateGrid gridValues
  simp only [Option.none_or]
  rw [if_neg (by rintro (h | h); exact hna (Option.some.inj h); exact hnb h)]
  cases hab with
  | known ha hb =>
    obtain ⟨s, hs⟩ := known_proj4 E ha
    obtain ⟨t, ht⟩ := known_proj4 E hb
    have key : ∀ ps : List (ℝ × ℝ), (ps.map (E.proj s t)).map (place b) = ps.map (place a) := by
      intro ps
      rw [List.map_map]
      apply List.map_congr_left
      intro p _
      exact hE.proj a b s t p ha hb hs ht
    have hproj : projGrid E a b g = .ok { g with points := g.points.map (E.proj s t), corners := g.corners.map fun cs => cs.map (E.proj s t) } := by
      unfold projGrid; rw [hs, ht]
    have hcs : (g.corners.map fun cs => cs.map (E.proj s t)).map (fun cs => cs.map (place b)) = g.corners.map (fun cs => cs.map (place a)) := by
      rw [Option.map_map]
      cases g.corners with
      | none => rfl
      | some cs => exact congrArg some (key cs)
    refine ⟨{ g with points := g.points.map (E.proj s t), corners := g.corners.map fun cs => cs.map (E.proj s t) }, ?_, key _, rfl,
      fun _ _ => ⟨hcs, rfl⟩, fun _ => hcs⟩
    cases a <;> cases b <;> first | exact ha.elim | exact hb.elim | (simp only [hproj]; rw [hf])
  | @fromPole r lon lat =>
    refine ⟨{ g with points := g.points.map (E.rotate lon lat false), corners := none, cornerLevels := none },
      by simp only [rotateGrid, geographic, Bool.or_true, if_true]; rfl, ?_, rfl, fun h => h.elim, fun h => (h rfl).elim⟩
    simp only [List.map_map]
    apply List.map_congr_left
    intro p _
    exact hE.fromPole r lon lat p
  | @toPole r lon lat =>
    refine ⟨{ g with points := g.points.map (E.rotate lon lat true), corners := none, cornerLevels := none },
      by simp only [rotateGrid, geographic, Bool.true_or, if_true]; rfl, ?_, rfl, fun _ h => h.elim, fun h => (h rfl).elim⟩
    simp only [List.map_map]
    apply List.map_congr_left
    intro p _
    exact hE.toPole r lon lat p

/-- **C83.** Geometries transformed between known coordinate systems keep the place of every point of their exteriors and holes, and their
heights.  What is missing: rotated poles (`C83_pole_geometry_counterexample`). -/
theorem C83_geometry_places_partial {α : Type} (E : Ext) (place : Crs → ℝ × ℝ → α) (hE : Faithful E place) (a b : Crs) (ha : Known a)
    (hb : Known b) (crs src : Option Crs) (hs : src.or crs = some a) (gs : List Geom) :
    ∃ gs', updateGeoms E crs (some b) src gs = .ok gs' ∧
      gs'.map (fun g => (rings g).map fun r => r.map (place b)) = gs.map (fun g => (rings g).map fun r => r.map (place a)) ∧
      gs'.map (fun g => (g.hasZ, (g.shell :: g.holes).map fun r => r.map Pt.z)) =
        gs.map (fun g => (g.hasZ, (g.shell :: g.holes).map fun r => r.map Pt.z)) := by
  obtain ⟨s, hp⟩ := known_proj4 E ha
  obtain ⟨t, hq⟩ := known_proj4 E hb
  unfold updateGeoms
  rw [hs]
  simp only
  rw [if_neg (by rintro (h | h); exact known_ne_cartesian ha h; exact known_ne_cartesian hb h), hp, hq]
  simp only
  split
  · rename_i h
    refine ⟨gs, rfl, ?_, rfl⟩
    apply List.map_congr_left
    intro g _
    apply List.map_congr_left
    intro r _
    apply List.map_congr_left
    intro p _
    exact hE.same a b s t p ha hb hp hq (by simpa using h)
  · refine ⟨_, rfl, ?_, ?_⟩
    · rw [List.map_map]
      apply List.map_congr_left
      intro g _
      simp only [Function.comp, rings, ogrGeom, List.map_cons, List.map_map]
      congr 1
      · apply List.map_congr_left
        intro p _
        exact hE.ogr a b s t (p.x, p.y) ha hb hp hq
      · apply List.map_congr_left
        intro r _
        simp only [Function.comp, List.map_map]
        apply List.map_congr_left
        intro p _
        exact hE.ogr a b s t (p.x, p.y) ha hb hp hq
    · rw [List.map_map]
      apply List.map_congr_left
      intro g _
      simp only [Function.comp, ogrGeom, List.map_cons, List.map_map]
      refine congrArg (Prod.mk g.hasZ) ?_
      congr 1
      apply List.map_congr_left
      intro r _
      simp only [Function.comp, List.map_map]
      rfl

theorem field_step {α : Type} (E : Ext) (place : Crs → ℝ × ℝ → α) (hE : Faithful E place) {a b : Crs} (ha : Known a) (hb : Known b)
    {f : Field} {G H} (h : At place a f G H) :
    ∃ f', updateField E (some b) none f = (f', none) ∧ At place b f' G H := by
  obtain ⟨crs, grid, geoms, geomCrs⟩ := f
  obtain ⟨hc, hgc, hg, hh⟩ := h
  simp only at hc hgc hg hh
  subst hc
  have geo : ∀ gs crs, ∃ gs', updateGeoms E crs (some b) (some a) gs = .ok gs' ∧ gs'.map (geomPlaces (place b)) = gs.map (geomPlaces (place a)) := by
    intro gs crs
    obtain ⟨gs', h1, h2, h3⟩ := C83_geometry_places_partial E place hE a b ha hb crs (some a) rfl gs
    refine ⟨gs', h1, ?_⟩
    have hl : gs'.length = gs.length := by have := congrArg List.length h2; simpa using this
    apply List.ext_getElem?
    intro i
    have e2 := congrArg (fun l => l[i]?) h2
    have e3 := congrArg (fun l => l[i]?) h3
    simp only [List.getElem?_map] at e2 e3 ⊢
    cases hx : gs'[i]? with
    | none =>
      have : gs[i]? = none := by
        rw [List.getElem?_eq_none_iff] at hx ⊢; omega
      rw [this]; rfl
    | some x =>
      cases hy : gs[i]? with
      | none =>
        rw [hx, hy] at e2
        cases e2
      | some y =>
        rw [hx, hy] at e2 e3
        simp only [Option.map_some, Option.some.injEq, Prod.mk.injEq] at e2 e3 ⊢
        simp only [geomPlaces]
        exact Prod.ext e2 (Prod.ext e3.1 e3.2)
  unfold updateField
  simp only [Option.none_or]
  cases grid with
  | none =>
    simp only
    cases geoms with
    | none => exact ⟨_, rfl, ⟨rfl, fun h => (h rfl).elim, hg, hh⟩⟩
    | some gs =>
      obtain ⟨gs', h1, h2⟩ := geo gs ((some a).or geomCrs)
      simp only [h1]
      exact ⟨_, rfl, ⟨rfl, fun _ => rfl, hg, by simp only [Option.map_some, h2]; exact hh⟩⟩
  | some g =>
    obtain ⟨g', h1, h2, h3, h4, _⟩ := C83_places_partial E place hE a b (.known ha hb) g
    obtain ⟨h4, h5⟩ := h4 ha hb
    have hu : updateGrid E (some a) (some b) (some a) g = ((g', some b), none) := by
      have : updateGrid E (some a) (some b) (some a) g = updateGrid E (some a) (some b) none g := rfl
      rw [this, h1]
    have hgp : gridPlaces (place b) g' = gridPlaces (place a) g := by
      simp only [gridPlaces]
      exact Prod.ext h2 (Prod.ext h3 (Prod.ext h4 h5))
    simp only [hu]
    cases geoms with
    | none => exact ⟨_, rfl, ⟨rfl, fun h => (h rfl).elim, by simp only [Option.map_some, hgp]; exact hg, hh⟩⟩
    | some gs =>
      obtain ⟨gs', h6, h7⟩ := geo gs ((some b).or geomCrs)
      simp only [h6]
      exact ⟨_, rfl, ⟨rfl, fun _ => rfl, by simp only [Option.map_some, hgp]; exact hg, by simp only [Option.map_some, h7]; exact hh⟩⟩

/-- **C83.** However often a field is transformed between known coordinate systems, nothing fails, and the centres and corners of its grid
and its geometries are in the last system and at the places where they were.  What is missing: rotated poles and Cartesian systems. -/
theorem C83_field_partial {α : Type} (E : Ext) (place : Crs → ℝ × ℝ → α) (hE : Faithful E place) (cs : List Crs) (hcs : ∀ c ∈ cs, Known c)
    (a : Crs) (ha : Known a) (f : Field) {G H} (h : At place a f G H) :
    ∃ f', updateAll E cs f = (f', false) ∧ At place (cs.getLast?.getD a) f' G H := by
  induction cs generalizing a f with
  | nil => exact ⟨f, rfl, h⟩
  | cons c cs ih =>
    have hc := hcs c (by simp)
    obtain ⟨f', h1, h2⟩ := field_step E place hE ha hc h
    obtain ⟨f'', h3, h4⟩ := ih (fun d hd => hcs d (List.mem_cons_of_mem _ hd)) c hc f' h2
    refine ⟨f'', ?_, ?_⟩
    · unfold updateAll
      rw [h1]
      exact h3
    · rw [List.getLast?_cons]
      exact h4

/-- **C83.** A grid whose transformation fails keeps its coordinates and its coordinate system, unless the new system is in radians. -/
theorem C83_failed (E : Ext) (crs dst src : Option Crs) (g : Grid) (e : Err) (hr : ∀ r, dst ≠ some (.spherical r true))
    (ht : dst ≠ some (.tripole true)) (h : (updateGrid E crs dst src g).2 = some e) : (updateGrid E crs dst src g).1 = (g, crs) := by
  unfold updateGrid at h ⊢
  cases hv : gridValues E crs dst src g with
  | error e => rfl
  | ok g' =>
    rw [hv] at h
    simp only at h
    exfalso
    unfold formatError at h
    split at h
    · exact hr _ rfl
    · exact ht rfl
    · cases h

/-- **C83.** A grid in degrees with a centre or corner beyond 180 degrees, or without levels, is not transformed to Cartesian coordinates. -/
theorem C83_refused (E : Ext) (c : Crs) (hc : (∃ r, c = .spherical r false) ∨ c = .tripole false) (g : Grid)
    (h : (∃ p ∈ g.points, p.1 > 180) ∨ g.levels = none ∨
      ∃ cs zs, g.corners = some cs ∧ g.cornerLevels = some zs ∧ ∃ p ∈ List.zip cs zs, p.1.1 > 180) :
    updateGrid E (some c) (some .cartesian) none g = ((g, some c), some .valueError) := by
  have key : sphericalTransformGrid false (some c) .cartesian false g = .error .valueError := by
    have hw : wrappable c = true := by rcases hc with ⟨r, h⟩ | h <;> subst h <;> rfl
    unfold sphericalTransformGrid
    split
    · rfl
    · rename_i hn
      have hn : ¬ ∃ p ∈ g.points, p.1 > 180 := by
        rintro ⟨p, hp, h⟩
        exact hn ⟨rfl, ⟨c, rfl, hw⟩, p.1, List.mem_map.2 ⟨p, hp, rfl⟩, h⟩
      rcases h with h | h | ⟨cs, zs, h1, h2, p, hp, h3⟩
      · exact (hn h).elim
      · rw [h]
      · cases hl : g.levels with
        | none => rfl
        | some ls =>
          simp only
          have hx : ∀ q ∈ withLevels g.points ls, q.x ≤ 180 := by
            intro q hq
            refine withLevels_mem (ok := fun q => q.x ≤ 180) ?_ q hq
            intro p hp
            have := (List.of_mem_zip hp).1
            exact not_lt.1 (fun h => hn ⟨p.1, this, h⟩)
          rw [transformCoordinates_to (fun _ => hx)]
          simp only [h1, h2]
          have : transformCoordinates false .cartesian false (withLevels cs zs) = .error .valueError := by
            unfold transformCoordinates
            rw [if_neg (by simp), if_neg (by decide), if_pos]
            refine ⟨rfl, ⟨p.1.1, p.1.2, p.2⟩, ?_, h3⟩
            by_contra hno
            exact zip_withLevels (P := fun q => q ≠ ⟨p.1.1, p.1.2, p.2⟩) (fun q hq he => hno (he ▸ hq)) p hp rfl
          rw [this]
  have : gridValues E (some c) (some .cartesian) none g = .error .valueError := by
    unfold gridValues
    simp only [Option.none_or, or_true, if_true]
    rcases hc with ⟨r, h⟩ | h <;> subst h <;> exact key
  unfold updateGrid
  rw [this]

/-- **C83.** Full statement false: a grid with a rotated pole transformed to a projected system only gets the longitudes and latitudes, though
its coordinate system is the projected one. -/
theorem C83_pole_projected_counterexample :
    ∃ (E : Ext) (place : Crs → ℝ × ℝ → ℝ × ℝ) (g g' : Grid), Faithful E place ∧
      updateGrid E (some (.rotated 0 0)) (some (.other "+proj=lcc" false)) none g = ((g', some (.other "+proj=lcc" false)), none) ∧
      g'.points.map (place (.other "+proj=lcc" false)) ≠ g.points.map (place (.rotated 0 0)) := by
  refine ⟨scaleExt, scalePlace, ⟨[(10, 0)], none, none, none⟩, ⟨[(10, 0)], none, none, none⟩, scale_faithful, rfl, ?_⟩
  simp only [List.map_cons, List.map_nil, scalePlace, scaleOf, if_true]
  intro h
  have := congrArg (fun l => l.map Prod.fst) h
  simp only [List.map_cons, List.map_nil, List.cons.injEq, and_true] at this
  norm_num at this

/-- **C83.** A projected grid cannot be transformed to a rotated pole: an assertion fails. -/
theorem C83_to_pole_counterexample (E : Ext) (t : String) (lon lat : Rat) (g : Grid) :
    updateGrid E (some (.other t false)) (some (.rotated lon lat)) none g = ((g, some (.other t false)), some .assertionError) := by
  unfold updateGrid gridValues
  simp only [Option.none_or]
  rw [if_neg (by simp)]
  simp only [rotateGrid, geographic, Bool.or_false, Bool.false_eq_true, if_false]

/-- **C83.** Full statement false: geometries with a rotated pole are taken for ones of an oblique Mercator projection, and two rotated poles
for the same. -/
theorem C83_pole_geometry_counterexample :
    (∀ E lon lat lon' lat' gs, updateGeoms E (some (.rotated lon lat)) (some (.rotated lon' lat')) none gs = .ok gs) ∧
    ∃ (E : Ext) (place : Crs → ℝ × ℝ → ℝ × ℝ) (g g' : Geom), Faithful E place ∧
      updateGeoms E (some (.rotated 0 0)) (some (.spherical 1 false)) none [g] = .ok [g'] ∧
      (rings g').map (List.map (place (.spherical 1 false))) ≠ (rings g).map (List.map (place (.rotated 0 0))) := by
  constructor
  · intro E lon lat lon' lat' gs
    unfold updateGeoms
    simp only [Option.none_or]
    rw [if_neg (by simp)]
    simp [proj4]
  · refine ⟨scaleExt, scalePlace, ⟨[⟨3, 0, 0⟩], false, []⟩, ogrGeom scaleExt "+proj=omerc" "+proj=longlat" ⟨[⟨3, 0, 0⟩], false, []⟩,
      scale_faithful, ?_, ?_⟩
    · unfold updateGeoms
      simp only [Option.none_or]
      rw [if_neg (by simp)]
      simp only [proj4, scaleExt]
      rfl
    · simp only [rings, ogrGeom, scaleExt, scaleOf_longlat, List.map_cons, List.map_nil, scalePlace]
      intro h
      have := congrArg (fun l => l.map (List.map Prod.fst)) h
      simp only [List.map_cons, List.map_nil, List.cons.injEq, and_true] at this
      unfold scaleOf at this
      rw [if_neg (by decide), if_pos rfl] at this
      norm_num at this

/-- **C83.** The origin given to `update_crs` does not replace the grid's own coordinate system: a grid with a rotated pole fails with any
other origin, and one of a known system is taken for an oblique Mercator projection if the origin is a rotated pole. -/
theorem C83_origin_counterexample (E : Ext) (lon lat : Rat) (a b : Crs) (ha : Known a) (hb : Known b) (g : Grid) :
    updateGrid E (some (.rotated lon lat)) (some b) (some a) g = ((g, some (.rotated lon lat)), some .attributeError) ∧
    ∀ t, proj4 E b = some t → ((updateGrid E (some a) (some b) (some (.rotated lon lat)) g).1.1.points = g.points.map (E.proj "+proj=omerc" t) ∧
      (updateGrid E (some a) (some b) (some (.rotated lon lat)) g).2 = none) := by
  have hnb := known_ne_cartesian hb
  have hna := known_ne_cartesian ha
  constructor
  · unfold updateGrid gridValues
    simp only [Option.some_or]
    rw [if_neg (by rintro (h | h); cases h; exact hnb h)]
    cases a <;> first | exact ha.elim | rfl
  · intro t ht
    unfold updateGrid gridValues
    simp only [Option.some_or]
    rw [if_neg (by rintro (h | h); exact hna (Option.some.inj h); exact hnb h)]
    have hp : projGrid E (.rotated lon lat) b g = .ok { g with points := g.points.map (E.proj "+proj=omerc" t), corners := g.corners.map fun cs => cs.map (E.proj "+proj=omerc" t) } := by
      unfold projGrid; rw [ht]; rfl
    have hf := known_format hb
    cases a <;> cases b <;> first | exact ha.elim | exact hb.elim | exact ⟨by simp only [hp], by simp only [hp]; exact hf⟩

/-- **C83.** Radians are not converted: coordinates in radians transformed to degrees on the same sphere stay as they are. -/
theorem C83_angular_units_counterexample :
    ∃ (E : Ext) (place : Crs → ℝ × ℝ → ℝ × ℝ) (g : Grid), Faithful E place ∧ g.points = [(Real.pi, 0)] ∧
      ((updateGrid E (some (.spherical 1 true)) (some (.spherical 1 false)) none g).1.1.points = [(Real.pi, 0)]) ∧
      (updateGrid E (some (.spherical 1 true)) (some (.spherical 1 false)) none g).2 = none := by
  refine ⟨scaleExt, scalePlace, ⟨[(Real.pi, 0)], none, none, none⟩, scale_faithful, rfl, ?_⟩
  have h : updateGrid scaleExt (some (.spherical 1 true)) (some (.spherical 1 false)) none ⟨[(Real.pi, 0)], none, none, none⟩ =
      ((⟨[(scaleExt.proj "+proj=longlat" "+proj=longlat" (Real.pi, 0))], none, none, none⟩, some (.spherical 1 false)), none) := rfl
  rw [h]
  simp [scaleExt, scaleOf_longlat]

/-- **C83.** Full statement false: the longitude of a pole is lost, longitudes below -180 degrees are accepted and come back 360 degrees
larger, and with a negative level the point comes back on the other side of the Earth. -/
theorem C83_range_counterexample (E : Ext) :
    let s : Option Crs := some (.spherical 1 false)
    let there := fun g : Grid => (updateGrid E s (some .cartesian) none g).1.1
    let back := fun g : Grid => updateGrid E (some .cartesian) s none (there g)
    (back ⟨[(90, 90)], some [1], none, none⟩ = ((⟨[(0, 90)], some [1], none, none⟩, s), none)) ∧
    (back ⟨[(-270, 0)], some [1], none, none⟩ = ((⟨[(90, 0)], some [1], none, none⟩, s), none)) ∧
    (back ⟨[(0, 0)], some [-1], none, none⟩ = ((⟨[(180, 0)], some [1], none, none⟩, s), none)) := by
  have h90 : (90 : ℝ) * degToRad = Real.pi / 2 := by unfold degToRad; ring
  have h90' : Real.pi / 2 * radToDeg = 90 := by
    unfold radToDeg
    have := Real.pi_ne_zero
    field_simp; norm_num
  have h180' : Real.pi * radToDeg = 180 := by
    unfold radToDeg
    have := Real.pi_ne_zero
    field_simp
  have h270 : (-270 : ℝ) * degToRad = Real.pi / 2 - 2 * Real.pi := by unfold degToRad; ring
  have argI : Complex.arg ⟨0, 1⟩ = Real.pi / 2 := Complex.arg_I
  have arg0 : Complex.arg ⟨0, 0⟩ = 0 := Complex.arg_zero
  have argm : Complex.arg ⟨-1, 0⟩ = Real.pi := by
    have : (⟨-1, 0⟩ : ℂ) = -1 := by apply Complex.ext <;> simp
    rw [this, Complex.arg_neg_one]
  refine ⟨?_, ?_, ?_⟩
  · simp only [oneGrid_there E (x := 90) (y := 90) (z := 1) (by norm_num)]
    rw [oneGrid_back E (toCart_of (by rw [h90, Real.sin_pi_div_two]) (by rw [h90, Real.cos_pi_div_two]) (by rw [h90, Real.sin_pi_div_two])
      (by rw [h90, Real.cos_pi_div_two]))]
    unfold fromCart
    simp [arg0, h90']
  · simp only [oneGrid_there E (x := -270) (y := 0) (z := 1) (by norm_num)]
    rw [oneGrid_back E (toCart_of (sx := 1) (cx := 0) (sy := 0) (cy := 1) (by rw [h270, Real.sin_sub_two_pi, Real.sin_pi_div_two])
      (by rw [h270, Real.cos_sub_two_pi, Real.cos_pi_div_two]) (by simp) (by simp))]
    unfold fromCart
    simp [argI, h90']
  · simp only [oneGrid_there E (x := 0) (y := 0) (z := -1) (by norm_num)]
    rw [oneGrid_back E (toCart_of (sx := 0) (cx := 1) (sy := 0) (cy := 1) (by simp) (by simp) (by simp) (by simp))]
    unfold fromCart
    simp [argm, h180']

/-- **C83.** Full statement false: a polygon transformed to Cartesian coordinates or back loses its holes; without heights it gets heights of one. -/
theorem C83_holes_counterexample (E : Ext) (r : Rat) (g : Geom) :
    (∀ p ∈ g.shell, p.x ≤ 180) → ∃ g', updateGeoms E (some (.spherical r false)) (some .cartesian) none [g] = .ok [g'] ∧ g'.holes = [] ∧
      g'.hasZ = true ∧ (g.hasZ = false → g'.shell.Forall fun q => q.x ^ 2 + q.y ^ 2 + q.z ^ 2 = 1) := by
  intro h
  have hx : ∀ p ∈ (if g.hasZ = true then g.shell else g.shell.map fun p => { p with z := 1 }), p.x ≤ 180 := by
    split
    · exact h
    · intro p hp
      obtain ⟨q, hq, rfl⟩ := List.mem_map.1 hp
      exact h q hq
  refine ⟨⟨(if g.hasZ = true then g.shell else g.shell.map fun p => { p with z := 1 }).map (toCart false), true, []⟩, ?_, rfl, rfl, ?_⟩
  · unfold updateGeoms
    simp only [Option.none_or, or_true, if_true, transformGeoms]
    rw [if_neg]
    · simp only [sphericalTransformGeom]
      have := transformCoordinates_to (radians := false) (fun _ => hx)
      simp only [ne_eq, not_true_eq_false, decide_false]
      rw [this]
    · rintro ⟨_, _, x, hm, hgt⟩
      obtain ⟨q, hq, rfl⟩ := List.mem_map.1 hm
      exact absurd hgt (not_lt.2 (h q hq))
  · intro hz
    rw [List.forall_iff_forall_mem]
    intro q hq
    simp only [hz, Bool.false_eq_true, if_false] at hq
    obtain ⟨a, ha, rfl⟩ := List.mem_map.1 hq
    obtain ⟨b, hb, rfl⟩ := List.mem_map.1 ha
    have := cartesian_dot (isCartesian_toCart { b with z := 1 }) (isCartesian_toCart { b with z := 1 })
    have hc := Real.sin_sq_add_cos_sq (b.y * Real.pi / 180)
    simp only [sub_self, zero_mul, zero_div, Real.cos_zero, mul_one, ← sq, hc] at this
    rw [this, one_pow]

/-- **C83.** Full statement false: a field with a grid and several geometries is half transformed to Cartesian coordinates: the grid and the
field's coordinate system change, then an assertion fails and the geometries stay. -/
theorem C83_half_counterexample (E : Ext) (r : Rat) (g : Grid) (hg : FullGrid (PtInRange false) g) (a b : Geom) (gs : List Geom) :
    ∃ g', updateField E (some .cartesian) none ⟨some (.spherical r false), some g, some (a :: b :: gs), some (.spherical r false)⟩ =
      (⟨some .cartesian, some g', some (a :: b :: gs), some (.spherical r false)⟩, some .assertionError) ∧
      List.Forall₂ IsCartesian (allPoints g) (allPoints g') := by
  obtain ⟨g', h1, h2, _⟩ := C83_cartesian_and_back E (.spherical r false) (Or.inl ⟨r, rfl⟩) g hg
  refine ⟨g', ?_, h2⟩
  have hu : updateGrid E (some (.spherical r false)) (some .cartesian) (some (.spherical r false)) g = ((g', some .cartesian), none) := h1
  unfold updateField
  simp only [Option.none_or, hu]
  rfl

/-- **C83.** Ellipsoids cannot be transformed to Cartesian coordinates or back, and corners without levels cannot be transformed. -/
theorem C83_cartesian_counterexample (E : Ext) (t : String) (geo : Bool) (g : Grid) :
    updateGrid E (some (.other t geo)) (some .cartesian) none g = ((g, some (.other t geo)), some .attributeError) ∧
    updateGrid E (some .cartesian) (some (.other t geo)) none g = ((g, some .cartesian), some .crsNotEquivalent) ∧
    ∀ r cs, FullGrid (PtInRange false) ⟨g.points, g.levels, none, none⟩ → g.corners = some cs → g.cornerLevels = none →
      updateGrid E (some (.spherical r false)) (some .cartesian) none g = ((g, some (.spherical r false)), some .attributeError) := by
  refine ⟨?_, ?_, ?_⟩
  · unfold updateGrid gridValues
    simp [transformGrid]
  · unfold updateGrid gridValues
    simp [transformGrid]
  · intro r cs hg h1 h2
    have hx := inRange_points hg
    obtain ⟨zs, hz, hl, hok⟩ := hg.levels
    simp only at hz hl hok hx
    have key : sphericalTransformGrid false (some (.spherical r false)) .cartesian false g = .error .attributeError := by
      unfold sphericalTransformGrid
      rw [if_neg, hz]
      · simp only
        rw [transformCoordinates_to (fun _ => withLevels_mem (ok := fun p => p.x ≤ 180) (fun p hp => by have := (hok p hp).1; simpa using this))]
        simp only [h1, h2]
      · rintro ⟨_, _, x, hm, hgt⟩
        obtain ⟨q, hq, rfl⟩ := List.mem_map.1 hm
        exact absurd hgt (not_lt.2 (hx q hq))
    have : gridValues E (some (.spherical r false)) (some .cartesian) none g = .error .attributeError := by
      unfold gridValues
      simp only [Option.none_or, or_true, if_true]
      exact key
    unfold updateGrid
    rw [this]

example : Faithful scaleExt scalePlace ∧ CanTransform (.rotated 30 40) (.spherical 6370997 false) ∧
    CanTransform (.other "+proj=lcc" false) (.spherical 6370997 false) := ⟨scale_faithful, .fromPole, .known trivial rfl⟩

example : ∃ G H, At scalePlace (.other "+proj=lcc" false)
    ⟨some (.other "+proj=lcc" false), some ⟨[(10, 20)], none, some [(9, 19), (11, 21)], none⟩, some [⟨[⟨1, 2, 0⟩, ⟨3, 4, 0⟩, ⟨5, 7, 0⟩], false, []⟩],
      some (.other "+proj=lcc" false)⟩ G H ∧ Known (.other "+proj=lcc" false) ∧
    ∀ c ∈ [Crs.spherical 6370997 false, .other "+proj=utm" false, .other "+proj=lcc" false], Known c :=
  ⟨_, _, ⟨rfl, fun _ => rfl, rfl, rfl⟩, trivial, by simp [Known]⟩

example (E : Ext) : (updateGrid E (some (.spherical 1 false)) (some .cartesian) none ⟨[(190, 0)], some [1], none, none⟩).2 = some .valueError := by
  rw [C83_refused E (.spherical 1 false) (Or.inl ⟨1, rfl⟩) _ (Or.inl ⟨(190, 0), by simp, by norm_num⟩)]

end Ocgis.Props
