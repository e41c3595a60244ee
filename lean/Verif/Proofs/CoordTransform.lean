import Verif.Spec.CoordTransform
import Mathlib.Tactic.FieldSimp
import Mathlib.Tactic.Ring
import Mathlib.Tactic.Linarith
import Mathlib.Tactic.Positivity
import Mathlib.Tactic.NormNum
/-!
# Lemmas
-/
namespace Ocgis.Props
open Ocgis Ocgis.CoordTransform Ocgis.Spec

theorem fromCart_toCart_rad {p : Pt} (h1 : -Real.pi < p.x) (h2 : p.x ≤ Real.pi) (h3 : -(Real.pi / 2) < p.y) (h4 : p.y < Real.pi / 2)
    (hz : 0 < p.z) : fromCart true (toCart true p) = p := by
  obtain ⟨x, y, z⟩ := p
  simp only at h1 h2 h3 h4 hz
  have hc : 0 < Real.cos y := Real.cos_pos_of_mem_Ioo ⟨h3, h4⟩
  have hr : Real.sqrt ((z * Real.cos y * Real.cos x) ^ 2 + (z * Real.cos y * Real.sin x) ^ 2 + (z * Real.sin y) ^ 2) = z := by
    have : (z * Real.cos y * Real.cos x) ^ 2 + (z * Real.cos y * Real.sin x) ^ 2 + (z * Real.sin y) ^ 2 = z ^ 2 := by
      have e1 := Real.sin_sq_add_cos_sq x
      have e2 := Real.sin_sq_add_cos_sq y
      calc _ = z ^ 2 * (Real.cos y ^ 2 * (Real.sin x ^ 2 + Real.cos x ^ 2) + Real.sin y ^ 2) := by ring
        _ = z ^ 2 * (Real.sin y ^ 2 + Real.cos y ^ 2) := by rw [e1]; ring
        _ = z ^ 2 := by rw [e2, mul_one]
    rw [this, Real.sqrt_sq hz.le]
  have harg : Complex.arg ⟨z * Real.cos y * Real.cos x, z * Real.cos y * Real.sin x⟩ = x := by
    have : (⟨z * Real.cos y * Real.cos x, z * Real.cos y * Real.sin x⟩ : ℂ) =
        ((z * Real.cos y : ℝ) : ℂ) * (Complex.cos x + Complex.sin x * Complex.I) := by
      rw [← Complex.ofReal_cos, ← Complex.ofReal_sin]
      generalize z * Real.cos y = a
      generalize Real.cos x = b
      generalize Real.sin x = c
      apply Complex.ext <;> simp
    rw [this]
    exact Complex.arg_mul_cos_add_sin_mul_I (mul_pos hz hc) ⟨h1, h2⟩
  have hlat : Real.arcsin (z * Real.sin y / z) = y := by
    rw [mul_div_cancel_left₀ _ hz.ne', Real.arcsin_sin h3.le h4.le]
  unfold fromCart toCart
  simp only [if_true, hr, harg, hlat]

theorem toCart_fromCart_rad {p : Pt} (h : p.x ≠ 0 ∨ p.y ≠ 0 ∨ p.z ≠ 0) : toCart true (fromCart true p) = p := by
  obtain ⟨x, y, z⟩ := p
  simp only at h
  have hpos : 0 < x ^ 2 + y ^ 2 + z ^ 2 := by
    rcases h with h | h | h <;> positivity
  generalize hr : Real.sqrt (x ^ 2 + y ^ 2 + z ^ 2) = r
  have hr0 : 0 < r := by rw [← hr]; exact Real.sqrt_pos.2 hpos
  have hrr : r ^ 2 = x ^ 2 + y ^ 2 + z ^ 2 := by rw [← hr]; exact Real.sq_sqrt hpos.le
  have hzr : |z| ≤ r := by
    refine abs_le_of_sq_le_sq ?_ hr0.le
    nlinarith [sq_nonneg x, sq_nonneg y]
  have hb : -1 ≤ z / r ∧ z / r ≤ 1 := by
    rw [abs_le] at hzr
    constructor
    · rw [le_div_iff₀ hr0]; linarith
    · rw [div_le_one hr0]; exact hzr.2
  have hnorm : r * Real.cos (Real.arcsin (z / r)) = ‖(⟨x, y⟩ : ℂ)‖ := by
    rw [Real.cos_arcsin, Complex.norm_def, Complex.normSq_mk]
    have : r * Real.sqrt (1 - (z / r) ^ 2) = Real.sqrt (r ^ 2 * (1 - (z / r) ^ 2)) := by
      rw [Real.sqrt_mul (sq_nonneg r), Real.sqrt_sq hr0.le]
    rw [this]
    congr 1
    field_simp
    rw [hrr]; ring
  unfold toCart fromCart
  simp only [if_true, hr, hnorm, Complex.norm_mul_cos_arg, Complex.norm_mul_sin_arg, Real.sin_arcsin hb.1 hb.2]
  rw [mul_div_cancel₀ _ hr0.ne']

theorem deg_rad : degToRad * radToDeg = 1 := by
  unfold degToRad radToDeg
  have := Real.pi_ne_zero
  field_simp

theorem rad_deg : radToDeg * degToRad = 1 := by rw [mul_comm]; exact deg_rad

theorem fromCart_toCart {radians : Bool} {p : Pt} (h : PtInRange radians p) : fromCart radians (toCart radians p) = p := by
  obtain ⟨h2, h1, h3, h4, h5⟩ := h
  cases radians with
  | true => exact fromCart_toCart_rad h1 h2 h3 h4 h5
  | false =>
    have hpos : 0 < degToRad := by unfold degToRad; positivity
    have h180 : 180 * degToRad = Real.pi := by unfold degToRad; ring
    have h90 : (180 / 2 : ℝ) * degToRad = Real.pi / 2 := by unfold degToRad; ring
    simp only [Bool.false_eq_true, if_false] at h1 h2 h3 h4
    have key := fromCart_toCart_rad (p := ⟨p.x * degToRad, p.y * degToRad, p.z⟩)
      (by rw [← h180, ← neg_mul]; exact mul_lt_mul_of_pos_right h1 hpos)
      (by rw [← h180]; exact mul_le_mul_of_nonneg_right h2 hpos.le)
      (by rw [← h90, ← neg_mul]; exact mul_lt_mul_of_pos_right h3 hpos)
      (by rw [← h90]; exact mul_lt_mul_of_pos_right h4 hpos) h5
    have e1 : toCart false p = toCart true ⟨p.x * degToRad, p.y * degToRad, p.z⟩ := rfl
    have e2 : ∀ q, fromCart false q = ⟨(fromCart true q).x * radToDeg, (fromCart true q).y * radToDeg, (fromCart true q).z⟩ := fun _ => rfl
    rw [e2, e1, key]
    obtain ⟨x, y, z⟩ := p
    simp only [mul_assoc, deg_rad, mul_one]

theorem toCart_fromCart (radians : Bool) {p : Pt} (h : p.x ≠ 0 ∨ p.y ≠ 0 ∨ p.z ≠ 0) : toCart radians (fromCart radians p) = p := by
  cases radians with
  | true => exact toCart_fromCart_rad h
  | false =>
    have e1 : ∀ q, toCart false q = toCart true ⟨q.x * degToRad, q.y * degToRad, q.z⟩ := fun _ => rfl
    have e2 : fromCart false p = ⟨(fromCart true p).x * radToDeg, (fromCart true p).y * radToDeg, (fromCart true p).z⟩ := rfl
    rw [e1, e2]
    simp only [mul_assoc, rad_deg, mul_one]
    exact toCart_fromCart_rad h

theorem fromCart_x_le (p : Pt) : (fromCart false p).x ≤ 180 := by
  have e2 : (fromCart false p).x = Complex.arg ⟨p.x, p.y⟩ * radToDeg := rfl
  rw [e2]
  have h1 := Complex.arg_le_pi ⟨p.x, p.y⟩
  have hpos : 0 < radToDeg := by unfold radToDeg; positivity
  have : Real.pi * radToDeg = 180 := by
    unfold radToDeg
    have := Real.pi_ne_zero
    field_simp
  rw [← this]
  exact mul_le_mul_of_nonneg_right h1 hpos.le

theorem isCartesian_toCart (p : Pt) : IsCartesian p (toCart false p) := by
  have hd : ∀ v : ℝ, v * degToRad = v * Real.pi / 180 := fun v => by unfold degToRad; ring
  unfold IsCartesian toCart
  simp only [Bool.false_eq_true, if_false, hd, and_self]

theorem cartesian_dot {p q a b : Pt} (h : IsCartesian p a) (k : IsCartesian q b) :
    a.x * b.x + a.y * b.y + a.z * b.z =
      p.z * q.z * (Real.sin (p.y * Real.pi / 180) * Real.sin (q.y * Real.pi / 180) +
        Real.cos (p.y * Real.pi / 180) * Real.cos (q.y * Real.pi / 180) * Real.cos ((p.x - q.x) * Real.pi / 180)) := by
  obtain ⟨h1, h2, h3⟩ := h
  obtain ⟨k1, k2, k3⟩ := k
  rw [h1, h2, h3, k1, k2, k3, show (p.x - q.x) * Real.pi / 180 = p.x * Real.pi / 180 - q.x * Real.pi / 180 by ring, Real.cos_sub]
  ring

theorem withLevels_map {ps : List (ℝ × ℝ)} {zs : List ℝ} (f : Pt → Pt) :
    withLevels (((withLevels ps zs).map f).map fun p => (p.x, p.y)) (((withLevels ps zs).map f).map Pt.z) = (withLevels ps zs).map f := by
  generalize (withLevels ps zs).map f = l
  unfold withLevels
  induction l with
  | nil => rfl
  | cons a t ih => simp only [List.map_cons, List.zipWith_cons_cons, ih]

theorem withLevels_back {ps : List (ℝ × ℝ)} {zs : List ℝ} (h : zs.length = ps.length) :
    ((withLevels ps zs).map fun p => (p.x, p.y)) = ps ∧ (withLevels ps zs).map Pt.z = zs := by
  induction ps generalizing zs with
  | nil =>
    cases zs with
    | nil => exact ⟨rfl, rfl⟩
    | cons _ _ => simp at h
  | cons a t ih =>
    cases zs with
    | nil => simp at h
    | cons z zs =>
      simp only [List.length_cons, Nat.add_right_cancel_iff] at h
      obtain ⟨h1, h2⟩ := ih h
      unfold withLevels at h1 h2 ⊢
      simp only [List.zipWith_cons_cons, List.map_cons, h1, h2, and_self]

theorem withLevels_mem {ps : List (ℝ × ℝ)} {zs : List ℝ} {ok : Pt → Prop} (h : ∀ p ∈ List.zip ps zs, ok ⟨p.1.1, p.1.2, p.2⟩) :
    ∀ q ∈ withLevels ps zs, ok q := by
  induction ps generalizing zs with
  | nil => intro q hq; simp [withLevels] at hq
  | cons a t ih =>
    cases zs with
    | nil => intro q hq; simp [withLevels] at hq
    | cons z zs =>
      intro q hq
      unfold withLevels at hq
      rw [List.zipWith_cons_cons, List.mem_cons] at hq
      rcases hq with hq | hq
      · subst hq
        exact h (a, z) (by simp)
      · exact ih (fun p hp => h p (by rw [List.zip_cons_cons]; exact List.mem_cons_of_mem _ hp)) q hq

theorem transformCoordinates_to {radians : Bool} {ps : List Pt} (h : radians = false → ∀ p ∈ ps, p.x ≤ 180) :
    transformCoordinates radians .cartesian false ps = .ok (ps.map (toCart radians)) := by
  unfold transformCoordinates
  rw [if_neg (by simp), if_neg (by decide), if_neg]
  rintro ⟨h1, p, hp, h2⟩
  exact absurd h2 (not_lt.2 (h h1 p hp))

theorem transformCoordinates_from {radians : Bool} {ps : List Pt} :
    transformCoordinates radians .cartesian true ps = .ok (ps.map (fromCart radians)) := by
  unfold transformCoordinates
  rw [if_neg (by simp), if_pos rfl]

/-- The grid with all points mapped. -/
noncomputable def mapGrid (f : Pt → Pt) (g : Grid) : Grid :=
  { points := ((withLevels g.points (g.levels.getD [])).map f).map fun p => (p.x, p.y)
    levels := some (((withLevels g.points (g.levels.getD [])).map f).map Pt.z)
    corners := g.corners.map fun cs => ((withLevels cs (g.cornerLevels.getD [])).map f).map fun p => (p.x, p.y)
    cornerLevels := g.corners.map fun cs => ((withLevels cs (g.cornerLevels.getD [])).map f).map Pt.z }

theorem sphericalTransformGrid_to {radians : Bool} {crs : Option Crs} {g : Grid} {ok : Pt → Prop} (hg : FullGrid ok g)
    (hu : ¬ Unwrapped crs (g.points.map Prod.fst)) (hok : radians = false → ∀ p, ok p → p.x ≤ 180) :
    sphericalTransformGrid radians crs .cartesian false g = .ok (mapGrid (toCart radians) g) := by
  obtain ⟨⟨zs, hz, hl, hp⟩, hc⟩ := hg
  unfold sphericalTransformGrid
  rw [if_neg (fun h => hu h.2), hz]
  simp only
  rw [transformCoordinates_to (fun hr p hm => hok hr p (withLevels_mem hp p hm))]
  rcases hc with ⟨h1, h2⟩ | ⟨cs, czs, h1, h2, hl', hp'⟩
  · simp only [h1, h2, mapGrid, hz]
    rfl
  · simp only [h1, h2]
    rw [transformCoordinates_to (fun hr p hm => hok hr p (withLevels_mem hp' p hm))]
    simp only [mapGrid, h1, h2, hz]
    rfl

theorem sphericalTransformGrid_from {radians : Bool} {crs : Option Crs} {g : Grid} {ok : Pt → Prop} (hg : FullGrid ok g) :
    sphericalTransformGrid radians crs .cartesian true g = .ok (mapGrid (fromCart radians) g) := by
  obtain ⟨⟨zs, hz, hl, hp⟩, hc⟩ := hg
  unfold sphericalTransformGrid
  rw [if_neg (fun h => by cases h.1), hz]
  simp only
  rw [transformCoordinates_from]
  rcases hc with ⟨h1, h2⟩ | ⟨cs, czs, h1, h2, hl', hp'⟩
  · simp only [h1, h2, mapGrid, hz]
    rfl
  · simp only [h1, h2]
    rw [transformCoordinates_from]
    simp only [mapGrid, h1, h2, hz]
    rfl

theorem zip_withLevels {ps : List (ℝ × ℝ)} {zs : List ℝ} {P : Pt → Prop} (h : ∀ q ∈ withLevels ps zs, P q) :
    ∀ p ∈ List.zip ps zs, P ⟨p.1.1, p.1.2, p.2⟩ := by
  intro p hp
  apply h
  unfold withLevels
  rw [show List.zipWith (fun (p : ℝ × ℝ) z => (⟨p.1, p.2, z⟩ : Pt)) ps zs = (List.zip ps zs).map fun p => ⟨p.1.1, p.1.2, p.2⟩ by
    rw [List.zip, List.map_zipWith]]
  exact List.mem_map.2 ⟨p, hp, rfl⟩

theorem mapGrid_full {f : Pt → Pt} {g : Grid} {ok ok' : Pt → Prop} (hg : FullGrid ok g) (h : ∀ p, ok p → ok' (f p)) :
    FullGrid ok' (mapGrid f g) := by
  obtain ⟨⟨zs, hz, hl, hp⟩, hc⟩ := hg
  have key : ∀ (ps : List (ℝ × ℝ)) (zs : List ℝ), zs.length = ps.length → (∀ p ∈ List.zip ps zs, ok ⟨p.1.1, p.1.2, p.2⟩) →
      (((withLevels ps zs).map f).map Pt.z).length = (((withLevels ps zs).map f).map fun p => (p.x, p.y)).length ∧
      ∀ p ∈ List.zip (((withLevels ps zs).map f).map fun p => (p.x, p.y)) (((withLevels ps zs).map f).map Pt.z), ok' ⟨p.1.1, p.1.2, p.2⟩ := by
    intro ps zs hl hp
    refine ⟨by simp, zip_withLevels ?_⟩
    rw [withLevels_map]
    intro q hq
    obtain ⟨a, ha, rfl⟩ := List.mem_map.1 hq
    exact h a (withLevels_mem hp a ha)
  refine ⟨⟨_, rfl, ?_⟩, ?_⟩
  · simp only [hz, Option.getD_some, mapGrid]
    exact key _ _ hl hp
  · rcases hc with ⟨h1, h2⟩ | ⟨cs, czs, h1, h2, hl', hp'⟩
    · exact Or.inl (by simp [mapGrid, h1])
    · refine Or.inr ⟨_, _, by simp only [mapGrid, h1, Option.map_some]; rfl, by simp only [mapGrid, h1, Option.map_some]; rfl, ?_⟩
      simp only [h2, Option.getD_some]
      exact key _ _ hl' hp'

theorem mapGrid_back {f k : Pt → Pt} {g : Grid} {ok : Pt → Prop} (hg : FullGrid ok g) (h : ∀ p, ok p → k (f p) = p) :
    mapGrid k (mapGrid f g) = g := by
  obtain ⟨⟨zs, hz, hl, hp⟩, hc⟩ := hg
  have key : ∀ (ps : List (ℝ × ℝ)) (zs : List ℝ), zs.length = ps.length → (∀ p ∈ List.zip ps zs, ok ⟨p.1.1, p.1.2, p.2⟩) →
      ((withLevels ps zs).map f).map k = withLevels ps zs := by
    intro ps zs hl hp
    rw [List.map_map]
    conv => rhs; rw [← List.map_id (withLevels ps zs)]
    apply List.map_congr_left
    intro a ha
    exact h a (withLevels_mem hp a ha)
  obtain ⟨points, levels, corners, cornerLevels⟩ := g
  simp only at hz hl hp hc
  subst hz
  unfold mapGrid
  simp only [Option.getD_some]
  rw [withLevels_map, key _ _ hl hp, (withLevels_back hl).1, (withLevels_back hl).2]
  rcases hc with ⟨h1, h2⟩ | ⟨cs, czs, h1, h2, hl', hp'⟩
  · subst h1; subst h2; rfl
  · subst h1; subst h2
    simp only [Option.map_some, Option.getD_some]
    rw [withLevels_map, key _ _ hl' hp', (withLevels_back hl').1, (withLevels_back hl').2]

theorem forall₂_toCart (l : List Pt) : List.Forall₂ IsCartesian l (l.map (toCart false)) := by
  induction l with
  | nil => exact .nil
  | cons a t ih => exact .cons (isCartesian_toCart a) ih

theorem allPoints_mapGrid {f : Pt → Pt} {g : Grid} {ok : Pt → Prop} (hg : FullGrid ok g) : allPoints (mapGrid f g) = (allPoints g).map f := by
  obtain ⟨⟨zs, hz, hl, hp⟩, hc⟩ := hg
  have e : ∀ g : Grid, allPoints g = withLevels g.points (g.levels.getD []) ++ withLevels (g.corners.getD []) (g.cornerLevels.getD []) :=
    fun _ => rfl
  rw [e, e, List.map_append]
  have e1 : (mapGrid f g).points = ((withLevels g.points (g.levels.getD [])).map f).map fun p => (p.x, p.y) := rfl
  have e2 : (mapGrid f g).levels.getD [] = ((withLevels g.points (g.levels.getD [])).map f).map Pt.z := rfl
  rw [e1, e2, withLevels_map]
  congr 1
  rcases hc with ⟨h1, h2⟩ | ⟨cs, czs, h1, h2, hl', hp'⟩
  · unfold mapGrid; simp [h1, withLevels]
  · unfold mapGrid
    simp only [h1, h2, Option.map_some, Option.getD_some]
    rw [withLevels_map]

theorem gridValues_to (E : Ext) {c : Crs} {radians : Bool} (hc : (∃ r, c = .spherical r radians) ∨ c = .tripole radians) {g : Grid}
    (hg : FullGrid (PtInRange radians) g) (hu : ∀ p ∈ g.points, p.1 ≤ 180) :
    gridValues E (some c) (some .cartesian) none g = .ok (mapGrid (toCart radians) g) := by
  have hnu : ¬ Unwrapped (some c) (g.points.map Prod.fst) := by
    rintro ⟨_, x, hx, h⟩
    obtain ⟨p, hp, rfl⟩ := List.mem_map.1 hx
    exact absurd h (not_lt.2 (hu p hp))
  unfold gridValues
  simp only [Option.none_or, or_true, if_true]
  have := sphericalTransformGrid_to (radians := radians) (crs := some c) hg hnu (fun hr p hp => by subst hr; have := hp.1; simpa using this)
  rcases hc with ⟨r, h⟩ | h <;> subst h <;> exact this

theorem gridValues_from (E : Ext) {c : Crs} {radians : Bool} (hc : (∃ r, c = .spherical r radians) ∨ c = .tripole radians) {g : Grid}
    {ok : Pt → Prop} (hg : FullGrid ok g) :
    gridValues E (some .cartesian) (some c) none g = .ok (mapGrid (fromCart radians) g) := by
  unfold gridValues
  simp only [Option.none_or, true_or, if_true]
  have := sphericalTransformGrid_from (radians := radians) (crs := some .cartesian) hg
  rcases hc with ⟨r, h⟩ | h <;> subst h <;> exact this

theorem inRange_points {g : Grid} (hg : FullGrid (PtInRange false) g) : ∀ p ∈ g.points, p.1 ≤ 180 := by
  intro p hp
  obtain ⟨zs, hz, hl, hok⟩ := hg.levels
  obtain ⟨i, hi, he⟩ := List.mem_iff_getElem.1 hp
  have hm : (g.points[i], zs[i]'(by rw [hl]; exact hi)) ∈ List.zip g.points zs := by
    rw [List.mem_iff_getElem]
    exact ⟨i, by simp [hl, hi], by simp⟩
  have := (hok _ hm).1
  rw [he] at this
  simpa using this

theorem known_proj4 (E : Ext) {c : Crs} (h : Known c) : ∃ s, proj4 E c = some s := by
  cases c <;> simp_all [Known, proj4]

theorem known_ne_cartesian {c : Crs} (h : Known c) : c ≠ .cartesian := by
  intro e; subst e; exact h

theorem known_format {c : Crs} (h : Known c) : formatError (some c) = none := by
  cases c with
  | spherical r rad => cases h; rfl
  | tripole _ => exact h.elim
  | _ => rfl

theorem canTransform_ne {a b : Crs} (h : CanTransform a b) : a ≠ .cartesian ∧ b ≠ .cartesian := by
  cases h with
  | known h k => exact ⟨known_ne_cartesian h, known_ne_cartesian k⟩
  | fromPole => exact ⟨by simp, by simp⟩
  | toPole => exact ⟨by simp, by simp⟩

theorem canTransform_format {a b : Crs} (h : CanTransform a b) : formatError (some b) = none := by
  cases h with
  | known h k => exact known_format k
  | fromPole => rfl
  | toPole => rfl

/-- The size of the units of a coordinate system by its text. -/
noncomputable def scaleOf (t : String) : ℝ := if t = "+proj=lcc" then 2 else if t = "+proj=omerc" then 3 else 1

/-- A world in which coordinate systems differ by a factor, and all rotated poles are not rotated. -/
noncomputable def scaleExt : Ext where
  sphereText _ := "+proj=longlat"
  proj s t p := (p.1 / scaleOf s * scaleOf t, p.2)
  rotate _ _ _ p := p
  ogr s t p := (p.1 / scaleOf s * scaleOf t, p.2)
  isSame s t := s == t

/-- The places in this world. -/
noncomputable def scalePlace : Crs → ℝ × ℝ → ℝ × ℝ
  | .other t _, p => (p.1 / scaleOf t, p.2)
  | _, p => p

theorem scaleOf_ne (t : String) : scaleOf t ≠ 0 := by unfold scaleOf; split <;> (try split) <;> norm_num

theorem scaleOf_longlat : scaleOf "+proj=longlat" = 1 := by unfold scaleOf; rw [if_neg (by decide), if_neg (by decide)]

theorem scalePlace_known {c : Crs} {s : String} (h : Known c) (hs : proj4 scaleExt c = some s) (p : ℝ × ℝ) :
    scalePlace c p = (p.1 / scaleOf s, p.2) := by
  cases c with
  | spherical r rad =>
    cases hs
    show p = _
    rw [show scaleExt.sphereText r = "+proj=longlat" from rfl, scaleOf_longlat, div_one]
  | other t geo => cases hs; rfl
  | _ => exact h.elim

theorem scale_faithful : Faithful scaleExt scalePlace where
  proj a b s t p ha hb hs ht := by
    rw [scalePlace_known ha hs, scalePlace_known hb ht]
    simp only [scaleExt, mul_div_cancel_right₀ _ (scaleOf_ne t)]
  ogr a b s t p ha hb hs ht := by
    rw [scalePlace_known ha hs, scalePlace_known hb ht]
    simp only [scaleExt, mul_div_cancel_right₀ _ (scaleOf_ne t)]
  same a b s t p ha hb hs ht h := by
    rw [scalePlace_known ha hs, scalePlace_known hb ht]
    have : s = t := by
      rcases h with h | h
      · exact of_decide_eq_true h
      · exact h
    rw [this]
  fromPole _ _ _ _ := rfl
  toPole _ _ _ _ := rfl

theorem oneGrid_full {x y z : ℝ} {ok : Pt → Prop} (h : ok ⟨x, y, z⟩) : FullGrid ok ⟨[(x, y)], some [z], none, none⟩ := by
  refine ⟨⟨_, rfl, rfl, ?_⟩, Or.inl ⟨rfl, rfl⟩⟩
  intro p hp
  simp only [List.zip_cons_cons, List.zip_nil_left, List.mem_cons, List.not_mem_nil, or_false] at hp
  subst hp
  exact h

theorem oneGrid_there (E : Ext) {x y z : ℝ} (hx : x ≤ 180) :
    updateGrid E (some (.spherical 1 false)) (some .cartesian) none ⟨[(x, y)], some [z], none, none⟩ =
      ((mapGrid (toCart false) ⟨[(x, y)], some [z], none, none⟩, some .cartesian), none) := by
  unfold updateGrid gridValues
  simp only [Option.none_or, or_true, if_true]
  have := sphericalTransformGrid_to (radians := false) (crs := some (.spherical 1 false)) (oneGrid_full (ok := fun p => p.x ≤ 180) (y := y) (z := z) hx)
    (by rintro ⟨_, a, ha, h⟩; simp only [List.map_cons, List.map_nil, List.mem_singleton] at ha; subst ha; exact absurd h (not_lt.2 hx)) (fun _ p h => h)
  unfold transformGrid
  simp only [ne_eq, not_true_eq_false, decide_false]
  rw [this]
  rfl

theorem oneGrid_back (E : Ext) {x y z : ℝ} {q : Pt} (hq : toCart false ⟨x, y, z⟩ = q) :
    updateGrid E (some .cartesian) (some (.spherical 1 false)) none (mapGrid (toCart false) ⟨[(x, y)], some [z], none, none⟩) =
      ((⟨[((fromCart false q).x, (fromCart false q).y)], some [(fromCart false q).z], none, none⟩, some (.spherical 1 false)), none) := by
  unfold updateGrid
  rw [gridValues_from E (Or.inl ⟨1, rfl⟩) (mapGrid_full (oneGrid_full (ok := fun _ => True) trivial) (ok' := fun _ => True) (fun _ _ => trivial))]
  unfold mapGrid
  simp only [withLevels, Option.getD_some, List.zipWith_cons_cons, List.zipWith_nil_left, List.map_cons, List.map_nil, Option.map_none, hq]
  rfl

theorem toCart_of {x y z sx cx sy cy : ℝ} (h1 : Real.sin (x * degToRad) = sx) (h2 : Real.cos (x * degToRad) = cx) (h3 : Real.sin (y * degToRad) = sy)
    (h4 : Real.cos (y * degToRad) = cy) : toCart false ⟨x, y, z⟩ = ⟨z * cy * cx, z * cy * sx, z * sy⟩ := by
  unfold toCart
  simp only [Bool.false_eq_true, if_false, h1, h2, h3, h4]

end Ocgis.Props
