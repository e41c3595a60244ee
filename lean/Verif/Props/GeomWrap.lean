import Verif.Proofs.GeomWrap

/-! # C93: wrapping geometries keeps their places -/

namespace Ocgis.Props
open Ocgis Ocgis.Spec Ocgis.GeomWrap

/-- Rectangles are cut well by `rectMeet`: the conditions of the theorems below are met by all lists of rectangles. -/
theorem rectMeet_cuts (ps : List Poly) (hps : ∀ q ∈ ps, ∃ a b c d : Rat, a ≤ c ∧ b ≤ d ∧ q = rect a b c d) (b : Box) : CutsWell rectMeet ps b := by
  have hmem : ∀ q, Piece.poly q ∈ rectMeet ps b ↔ ∃ a s c n : Rat, a ≤ c ∧ s ≤ n ∧ rect a s c n ∈ ps ∧
      max a b.minx < min c b.maxx ∧ max s b.miny < min n b.maxy ∧ q = rect (max a b.minx) (max s b.miny) (min c b.maxx) (min n b.maxy) := by
    intro q
    unfold rectMeet
    rw [List.mem_filterMap]
    constructor
    · rintro ⟨r, hr, he⟩
      obtain ⟨a, s, c, n, h1, h2, rfl⟩ := hps r hr
      simp only [rect] at he
      split at he
      · rename_i hlt
        simp only [Option.some.injEq, Piece.poly.injEq] at he
        exact ⟨a, s, c, n, h1, h2, hr, hlt.1, hlt.2, he.symm⟩
      · cases he
    · rintro ⟨a, s, c, n, h1, h2, hr, h3, h4, rfl⟩
      refine ⟨_, hr, ?_⟩
      simp only [rect]
      rw [if_pos ⟨h3, h4⟩]
  refine ⟨⟨?_, ?_, ?_, ?_⟩, ?_⟩
  · intro q hq p hp
    obtain ⟨a, s, c, n, h1, h2, hr, h3, h4, rfl⟩ := (hmem q).1 hq
    refine ⟨_, hr, ?_⟩
    rw [rect_covers _ _ _ _ h3.le h4.le] at hp
    rw [rect_covers _ _ _ _ h1 h2]
    simp only [max_le_iff, lt_min_iff] at hp
    exact ⟨hp.1.1, hp.2.1.1, hp.2.2.1.1, hp.2.2.2.1⟩
  · rintro p a1 a2 a3 a4 ⟨q, hq, hqp⟩
    obtain ⟨a, s, c, n, h1, h2, rfl⟩ := hps q hq
    rw [rect_covers _ _ _ _ h1 h2] at hqp
    have h3 : max a b.minx < min c b.maxx := lt_min (max_lt (by linarith) (by linarith)) (max_lt (by linarith) (by linarith))
    have h4 : max s b.miny < min n b.maxy := lt_min (max_lt (by linarith) (by linarith)) (max_lt (by linarith) (by linarith))
    refine ⟨_, (hmem _).2 ⟨a, s, c, n, h1, h2, hq, h3, h4, rfl⟩, ?_⟩
    rw [rect_covers _ _ _ _ h3.le h4.le]
    exact ⟨max_le hqp.1 a1.le, lt_min hqp.2.1 a2, max_le hqp.2.2.1 a3.le, lt_min hqp.2.2.2 a4⟩
  · intro q hq
    obtain ⟨a, s, c, n, h1, h2, hr, h3, h4, rfl⟩ := (hmem q).1 hq
    exact ⟨by simp [rect], rfl⟩
  · intro q hq x hx
    obtain ⟨a, s, c, n, h1, h2, hr, h3, h4, rfl⟩ := (hmem q).1 hq
    have e1 : b.minx ≤ max a b.minx := le_max_right _ _
    have e2 : min c b.maxx ≤ b.maxx := min_le_right _ _
    simp only [rect, List.mem_cons, List.not_mem_nil, or_false] at hx
    rcases hx with rfl | rfl | rfl | rfl | rfl <;> constructor <;> simp only <;> linarith
  · intro q hq
    obtain ⟨a, s, c, n, h1, h2, hr, h3, h4, rfl⟩ := (hmem q).1 hq
    rfl

/-- Wrapping polygons without holes, between 180 west and 360 east: a place is in the result exactly when it, or the same place one turn
further east, was in the geometry, and the result is between 180 west and 180 east.  (Places on the seam and at the poles are left
out.)  Missing for the full property: holes, which are lost, coordinates outside of these longitudes, and touching geometries for which
an error is raised (see the counterexamples). -/
theorem C93_wrap_partial (meet : Meet) (g g' : Geom) (hg : PlainGeom (-180) 360 g) (hr : CutsWell meet (polysOf g) rightClip)
    (hl : CutsWell meet (polysOf g) leftClip) (h : wrap meet g = .ok g') :
    (∀ p : Rat × Rat, -180 < p.1 → p.1 < 180 → -90 < p.2 → p.2 < 90 → (covers g' p ↔ covers g p ∨ covers g (p.1 + 360, p.2))) ∧
    (∀ p, covers g' p → -180 ≤ p.1 ∧ p.1 < 180) := wrap_spec meet g g' hg hr hl.1 h

/-- Unwrapping polygons without holes, between 180 west and 180 east. -/
theorem C93_unwrap_partial (meet : Meet) (g g' : Geom) (hg : PlainGeom (-180) 180 g)
    (h1 : ∀ q ∈ polysOf g, CutsWell meet [q] clip1 ∧ CutsWell meet [q] clip2) (h : unwrap meet g = .ok g') :
    (∀ p : Rat × Rat, 0 < p.1 → p.1 < 360 → p.1 ≠ 180 → -90 < p.2 → p.2 < 90 → (covers g' p ↔ covers g p ∨ covers g (p.1 - 360, p.2))) ∧
    (∀ p, covers g' p → 0 ≤ p.1 ∧ p.1 < 360) := unwrap_spec meet g g' hg (fun q hq => ⟨(h1 q hq).1, (h1 q hq).2.1⟩) h

theorem rect_plain (lo hi a b c d : Rat) (h1 : lo ≤ a) (h2 : a ≤ c) (h3 : c ≤ hi) : PlainPoly lo hi (rect a b c d) := by
  refine ⟨rfl, ⟨by simp [rect], rfl⟩, ?_⟩
  intro x hx
  simp only [rect, List.mem_cons, List.not_mem_nil, or_false] at hx
  rcases hx with rfl | rfl | rfl | rfl | rfl <;> constructor <;> simp only <;> linarith

/-- Rectangles over the date line and beside it meet the conditions; they are cut in two. -/
example : PlainGeom (-180) 360 (.multi [rect 170 0 190 10, rect 200 0 210 10]) ∧
    CutsWell rectMeet [rect 170 0 190 10, rect 200 0 210 10] rightClip ∧ CutsWell rectMeet [rect 170 0 190 10, rect 200 0 210 10] leftClip ∧
    wrap rectMeet (.multi [rect 170 0 190 10, rect 200 0 210 10]) =
      .ok (.multi [rect 170 0 180 10, rect (-180) 0 (-170) 10, rect (-160) 0 (-150) 10]) := by
  have hr : ∀ q ∈ [rect 170 0 190 10, rect 200 0 210 10], ∃ a b c d : Rat, a ≤ c ∧ b ≤ d ∧ q = rect a b c d := by
    intro q hq
    simp only [List.mem_cons, List.not_mem_nil, or_false] at hq
    rcases hq with rfl | rfl
    · exact ⟨_, _, _, _, by norm_num, by norm_num, rfl⟩
    · exact ⟨_, _, _, _, by norm_num, by norm_num, rfl⟩
  refine ⟨⟨by simp, ?_⟩, rectMeet_cuts _ hr _, rectMeet_cuts _ hr _, by decide +kernel⟩
  intro q hq
  simp only [List.mem_cons, List.not_mem_nil, or_false] at hq
  rcases hq with rfl | rfl <;> exact rect_plain _ _ _ _ _ _ (by norm_num) (by norm_num) (by norm_num)

example : PlainGeom (-180) 180 (.poly (rect (-10) 0 20 10)) ∧
    (∀ q ∈ polysOf (.poly (rect (-10) 0 20 10)), CutsWell rectMeet [q] clip1 ∧ CutsWell rectMeet [q] clip2) ∧
    unwrap rectMeet (.poly (rect (-10) 0 20 10)) = .ok (.multi [rect 350 0 360 10, rect 0 0 20 10]) := by
  refine ⟨rect_plain _ _ _ _ _ _ (by norm_num) (by norm_num) (by norm_num), ?_, by decide +kernel⟩
  intro q hq
  rw [polysOf, List.mem_singleton] at hq
  subst hq
  have hr : ∀ q ∈ [rect (-10) 0 20 10], ∃ a b c d : Rat, a ≤ c ∧ b ≤ d ∧ q = rect a b c d := by
    intro q hq
    rw [List.mem_singleton] at hq
    subst hq
    exact ⟨_, _, _, _, by norm_num, by norm_num, rfl⟩
  exact ⟨rectMeet_cuts _ hr _, rectMeet_cuts _ hr _⟩

/-- Wrapping returns a geometry if the part east of 180 consists of polygons only and the part west of it has no points. -/
theorem C93_wrap_returns (meet : Meet) (g : Geom) (hg : polysOf g ≠ []) (hr : ∀ x ∈ meet (polysOf g) rightClip, ∃ q, x = .poly q)
    (hl : .point ∉ meet (polysOf g) leftClip) : ∃ g', wrap meet g = .ok g' := by
  have key : ∀ (again : List Poly → Geom) (ps : List Poly), (∀ x ∈ meet ps rightClip, ∃ q, x = .poly q) → .point ∉ meet ps leftClip →
      ∃ g', wrapPolys meet g again ps = .ok g' := by
    intro again ps h1 h2
    unfold wrapPolys
    split
    · exact ⟨_, rfl⟩
    · split
      · obtain ⟨right, hright⟩ := shiftPieces_total (-360) _ h1
        have hsw : shiftWrap (meet ps rightClip) = .ok right := by
          unfold shiftWrap
          split
          · rename_i he; rw [he] at h1; obtain ⟨q, hq⟩ := h1 _ (List.mem_singleton.2 rfl); cases hq
          · rename_i he; rw [he] at h1; obtain ⟨q, hq⟩ := h1 _ (List.mem_singleton.2 rfl); cases hq
          · exact hright
        obtain ⟨left, hleft⟩ := polygons_total _ h2
        rw [hsw, hleft]
        exact ⟨_, rfl⟩
      · exact ⟨_, rfl⟩
  cases g with
  | poly q => exact key (fun ps => .poly (ps.headD ⟨[], []⟩)) [q] hr hl
  | multi qs => exact key .multi qs hr hl
  | point c => exact absurd rfl hg
  | points cs => exact absurd rfl hg
  | other => exact absurd rfl hg

example : (∀ x ∈ rectMeet (polysOf (.poly (rect 170 0 190 10))) rightClip, ∃ q, x = .poly q) ∧
    .point ∉ rectMeet (polysOf (.poly (rect 170 0 190 10))) leftClip := by
  have e1 : rectMeet (polysOf (.poly (rect 170 0 190 10))) rightClip = [.poly (rect 180 0 190 10)] := by decide +kernel
  refine ⟨fun x hx => ?_, by decide +kernel⟩
  rw [e1, List.mem_singleton] at hx
  exact ⟨_, hx⟩

/-- Unwrapping returns a geometry if the western part of each part that has one consists of polygons only, at least one, and the
eastern part has no points. -/
theorem C93_unwrap_returns (meet : Meet) (g : Geom) (hg : polysOf g ≠ [])
    (h : ∀ q ∈ polysOf g, shouldUnwrap q = true → (∀ x ∈ meet [q] clip1, ∃ r, x = .poly r) ∧ meet [q] clip1 ≠ [] ∧ .point ∉ meet [q] clip2) :
    ∃ g', unwrap meet g = .ok g' := by
  have one : ∀ q ∈ polysOf g, ∃ rs, unwrapPoly meet q = .ok rs ∧ rs ≠ [] := by
    intro q hq
    unfold unwrapPoly
    split
    · rename_i hs
      obtain ⟨h1, h2, h3⟩ := h q hq hs
      obtain ⟨left, hleft⟩ := shiftPieces_total 360 _ h1
      have hsu : shiftUnwrap (meet [q] clip1) = .ok left := by
        unfold shiftUnwrap
        split
        · rename_i he; rw [he] at h1; obtain ⟨q, hq⟩ := h1 _ (List.mem_singleton.2 rfl); cases hq
        · rename_i he; rw [he] at h1; obtain ⟨q, hq⟩ := h1 _ (List.mem_singleton.2 rfl); cases hq
        · exact hleft
      obtain ⟨right, hright⟩ := polygons_total _ h3
      rw [hsu, hright]
      refine ⟨_, rfl, ?_⟩
      intro hc
      have hl0 : left = [] := (List.append_eq_nil_iff.1 hc).1
      subst hl0
      cases hm : meet [q] clip1 with
      | nil => exact h2 hm
      | cons a as =>
        rw [hm] at hleft h1
        obtain ⟨r, rfl⟩ := h1 a List.mem_cons_self
        simp only [shiftPieces] at hleft
        split at hleft <;> simp at hleft
    · exact ⟨_, rfl, by simp⟩
  have each : ∀ ps : List Poly, (∀ q ∈ ps, ∃ rs, unwrapPoly meet q = .ok rs ∧ rs ≠ []) → ps ≠ [] → ∃ rs, unwrapEach meet ps = .ok rs ∧ rs ≠ [] := by
    intro ps
    induction ps with
    | nil => intro _ hne; exact absurd rfl hne
    | cons q ps ih =>
      intro hall _
      obtain ⟨rs, h1, h2⟩ := hall q List.mem_cons_self
      simp only [unwrapEach, h1]
      cases ps with
      | nil => exact ⟨_, rfl, by simpa using h2⟩
      | cons q2 ps =>
        obtain ⟨ts, h3, -⟩ := ih (fun q hq => hall q (List.mem_cons_of_mem _ hq)) (by simp)
        rw [h3]
        exact ⟨_, rfl, fun hc => h2 (List.append_eq_nil_iff.1 hc).1⟩
  have fin : ∀ ps : List Poly, (∀ q ∈ ps, ∃ rs, unwrapPoly meet q = .ok rs ∧ rs ≠ []) → ps ≠ [] → ∃ g', unwrapPolys meet g ps = .ok g' := by
    intro ps hall hne
    unfold unwrapPolys
    split
    · obtain ⟨rs, h1, h2⟩ := each ps hall hne
      rw [h1]
      simp only
      cases rs with
      | nil => exact absurd rfl h2
      | cons r rs =>
        cases rs with
        | nil => exact ⟨_, rfl⟩
        | cons r2 rs => exact ⟨_, rfl⟩
    · exact ⟨_, rfl⟩
  cases g with
  | poly q => exact fin _ one hg
  | multi qs => exact fin _ one hg
  | point c => exact absurd rfl hg
  | points cs => exact absurd rfl hg
  | other => exact absurd rfl hg

example : rectMeet [rect (-10) 0 20 10] clip1 = [.poly (rect (-10) 0 0 10)] ∧ rectMeet [rect (-10) 0 20 10] clip2 = [.poly (rect 0 0 20 10)] ∧
    shouldUnwrap (rect (-10) 0 20 10) = true := by decide +kernel

/-- Points and collections of points keep their places and their order, and come to the requested side. -/
theorem C93_points (meet : Meet) (ps : List (Rat × Rat)) :
    (∃ qs, wrap meet (.points ps) = .ok (.points qs) ∧ qs.length = ps.length ∧
      ∀ (i : Nat) p q, ps[i]? = some p → qs[i]? = some q → q.2 = p.2 ∧ (q.1 = p.1 ∨ q.1 = p.1 - 360) ∧ (-180 ≤ p.1 ∧ p.1 ≤ 360 → -180 ≤ q.1 ∧ q.1 ≤ 180)) ∧
    (∃ qs, unwrap meet (.points ps) = .ok (.points qs) ∧ qs.length = ps.length ∧
      ∀ (i : Nat) p q, ps[i]? = some p → qs[i]? = some q → q.2 = p.2 ∧ (q.1 = p.1 ∨ q.1 = p.1 + 360) ∧ (-180 ≤ p.1 ∧ p.1 ≤ 360 → 0 ≤ q.1 ∧ q.1 ≤ 360)) ∧
    (∀ p, wrap meet (.point p) = .ok (.point (wrapPoint p)) ∧ unwrap meet (.point p) = .ok (.point (unwrapPoint p))) := by
  refine ⟨⟨_, rfl, by simp, ?_⟩, ⟨_, rfl, by simp, ?_⟩, fun p => ⟨rfl, rfl⟩⟩
  · intro i p q hp hq
    rw [List.getElem?_map, hp] at hq
    simp only [Option.map_some, Option.some.injEq] at hq
    subst hq
    unfold wrapPoint
    split
    · rename_i h
      exact ⟨rfl, .inr rfl, fun hh => by constructor <;> simp only <;> linarith [hh.1, hh.2]⟩
    · rename_i h
      exact ⟨rfl, .inl rfl, fun hh => ⟨hh.1, not_lt.1 h⟩⟩
  · intro i p q hp hq
    rw [List.getElem?_map, hp] at hq
    simp only [Option.map_some, Option.some.injEq] at hq
    subst hq
    unfold unwrapPoint
    split
    · rename_i h
      exact ⟨rfl, .inr rfl, fun hh => by constructor <;> simp only <;> linarith [hh.1, hh.2]⟩
    · rename_i h
      exact ⟨rfl, .inl rfl, fun hh => ⟨not_lt.1 h, hh.2⟩⟩

example : wrap rectMeet (.points [(190, 1), (10, 2)]) = .ok (.points [(-170, 1), (10, 2)]) ∧
    unwrap rectMeet (.points [(-170, 1), (10, 2)]) = .ok (.points [(190, 1), (10, 2)]) := by decide +kernel

/-- Unwrapping what was wrapped gives back the places between 0 and 360 degrees. -/
theorem C93_roundtrip_partial (meet : Meet) (g g' g'' : Geom) (hg : PlainGeom 0 360 g) (hg' : PlainGeom (-180) 180 g')
    (hr : CutsWell meet (polysOf g) rightClip) (hl : CutsWell meet (polysOf g) leftClip)
    (h1 : ∀ q ∈ polysOf g', CutsWell meet [q] clip1 ∧ CutsWell meet [q] clip2) (h : wrap meet g = .ok g') (h' : unwrap meet g' = .ok g'')
    (p : Rat × Rat) (a1 : 0 < p.1) (a2 : p.1 < 360) (a3 : p.1 ≠ 180) (a4 : -90 < p.2) (a5 : p.2 < 90) : covers g'' p ↔ covers g p := by
  have hgw : PlainGeom (-180) 360 g := by
    cases g with
    | poly q => exact ⟨hg.holes, hg.closed, fun c hc => ⟨by linarith [(hg.within c hc).1], (hg.within c hc).2⟩⟩
    | multi qs => exact ⟨hg.1, fun q hq => ⟨(hg.2 q hq).holes, (hg.2 q hq).closed,
        fun c hc => ⟨by linarith [((hg.2 q hq).within c hc).1], ((hg.2 q hq).within c hc).2⟩⟩⟩
    | point c => exact absurd hg id
    | points cs => exact absurd hg id
    | other => exact absurd hg id
  have hin : ∀ p, covers g p → 0 ≤ p.1 ∧ p.1 < 360 := by
    intro p hp
    obtain ⟨q, hq, hqp⟩ := (covers_polysOf g _ _ hg p).1 hp
    have := (plain_polysOf g _ _ hg).2 q hq
    exact covers_within q _ _ this.closed this.within p hqp
  obtain ⟨e1, e2⟩ := C93_wrap_partial meet g g' hgw hr hl h
  obtain ⟨e3, -⟩ := C93_unwrap_partial meet g' g'' hg' h1 h'
  rw [e3 p a1 a2 a3 a4 a5]
  rcases lt_or_gt_of_ne a3 with h5 | h5
  · have h6 : ¬ covers g' (p.1 - 360, p.2) := by
      intro hc
      have := (e2 _ hc).1
      simp only at this
      linarith
    have h7 : ¬ covers g (p.1 + 360, p.2) := by
      intro hc
      have := (hin _ hc).2
      simp only at this
      linarith
    rw [e1 p (by linarith) h5 a4 a5]
    simp only [h6, h7, or_false]
  · have h6 : ¬ covers g' p := fun hc => absurd (e2 _ hc).2 (by linarith)
    have h7 : ¬ covers g (p.1 - 360, p.2) := by
      intro hc
      have := (hin _ hc).1
      simp only at this
      linarith
    rw [e1 (p.1 - 360, p.2) (by simp only; linarith) (by simp only; linarith) a4 a5]
    simp only [h6, h7, false_or, sub_add_cancel]

example : wrap rectMeet (.poly (rect 170 0 190 10)) = .ok (.multi [rect 170 0 180 10, rect (-180) 0 (-170) 10]) ∧
    unwrap rectMeet (.multi [rect 170 0 180 10, rect (-180) 0 (-170) 10]) = .ok (.multi [rect 170 0 180 10, rect 180 0 190 10]) := by
  decide +kernel

/-- Before a selection the geometry is brought to the convention of the field: a place of the field is then in it exactly when the same
place, in any convention, is in the geometry given; unless the geometry goes from the western hemisphere to beyond 180 degrees. -/
theorem C93_match_partial (meet : Meet) (field : WState) (g g' : Geom) (hg : PlainGeom (-180) 360 g)
    (hone : (∀ x ∈ lons (polysOf g), 0 ≤ x) ∨ (∀ x ∈ lons (polysOf g), x ≤ 180))
    (hr : CutsWell meet (polysOf g) rightClip) (hl : CutsWell meet (polysOf g) leftClip)
    (h1 : ∀ q ∈ polysOf g, CutsWell meet [q] clip1 ∧ CutsWell meet [q] clip2) (h : prepareSubset meet field g = .ok g')
    (p : Rat × Rat) (ha : match field with
      | .unwrapped => 0 < p.1 ∧ p.1 < 360 ∧ p.1 ≠ 180
      | .wrapped => -180 < p.1 ∧ p.1 < 180
      | .unknown => 0 < p.1 ∧ p.1 < 180) (a4 : -90 < p.2) (a5 : p.2 < 90) :
    covers g' p ↔ covers g p ∨ covers g (p.1 + 360, p.2) ∨ covers g (p.1 - 360, p.2) := by
  have hcoords : coordsOf g = lons (polysOf g) := by
    cases g with
    | poly q => rfl
    | multi qs => rfl
    | point c => exact absurd hg id
    | points cs => exact absurd hg id
    | other => exact absurd hg id
  have hstate : stateOfGeom g = .ok (stateOf (lons (polysOf g))) := by
    rw [← hcoords]
    cases g with
    | poly q => rfl
    | multi qs => rfl
    | point c => exact absurd hg id
    | points cs => exact absurd hg id
    | other => exact absurd hg id
  have hbetween : ∀ lo hi : Rat, (∀ x ∈ lons (polysOf g), lo ≤ x ∧ x ≤ hi) → ∀ p, covers g p → lo ≤ p.1 ∧ p.1 < hi := by
    intro lo hi hb p hp
    obtain ⟨q, hq, hqp⟩ := (covers_polysOf g _ _ hg p).1 hp
    have := (plain_polysOf g _ _ hg).2 q hq
    exact covers_within q _ _ this.closed (fun c hc => hb c.1 ((mem_lons _ _).2 ⟨q, hq, c, hc, rfl⟩)) p hqp
  have hall : ∀ x ∈ lons (polysOf g), -180 ≤ x ∧ x ≤ 360 := by
    intro x hx
    obtain ⟨q, hq, c, hc, rfl⟩ := (mem_lons _ _).1 hx
    exact ((plain_polysOf g _ _ hg).2 q hq).within c hc
  unfold prepareSubset at h
  rw [hstate] at h
  simp only at h
  -- what the state says about the coordinates
  have hs : (stateOf (lons (polysOf g)) = .unwrapped → ∀ x ∈ lons (polysOf g), 0 ≤ x) ∧
      (stateOf (lons (polysOf g)) ≠ .unwrapped → ∀ x ∈ lons (polysOf g), x ≤ 180) ∧
      (stateOf (lons (polysOf g)) = .unknown → ∀ x ∈ lons (polysOf g), 0 ≤ x ∧ x ≤ 180) := by
    unfold stateOf
    by_cases hu : (lons (polysOf g)).any fun x => decide (180 < x)
    · rw [if_pos hu]
      refine ⟨fun _ => ?_, fun hc => absurd rfl hc, fun hc => (by cases hc)⟩
      rcases hone with h2 | h2
      · exact h2
      · obtain ⟨x, hx, hx2⟩ := List.any_eq_true.1 hu
        have := h2 x hx
        have hx3 : 180 < x := of_decide_eq_true hx2
        exact absurd this (by linarith)
    · rw [if_neg hu]
      have hle : ∀ x ∈ lons (polysOf g), x ≤ 180 := by
        intro x hx
        apply Classical.byContradiction
        intro hc
        exact hu (List.any_eq_true.2 ⟨x, hx, decide_eq_true (not_le.1 hc)⟩)
      by_cases hw : (lons (polysOf g)).any fun x => decide (x < 0)
      · rw [if_pos hw]
        exact ⟨fun hc => (by cases hc), fun _ => hle, fun hc => (by cases hc)⟩
      · rw [if_neg hw]
        refine ⟨fun hc => (by cases hc), fun _ => hle, fun _ x hx => ⟨?_, hle x hx⟩⟩
        apply Classical.byContradiction
        intro hc
        exact hw (List.any_eq_true.2 ⟨x, hx, decide_eq_true (not_le.1 hc)⟩)
  have hout : ∀ lo hi : Rat, (∀ x ∈ lons (polysOf g), lo ≤ x ∧ x ≤ hi) → (hi ≤ p.1 + 360) → (p.1 - 360 < lo) →
      ¬ covers g (p.1 + 360, p.2) ∧ ¬ covers g (p.1 - 360, p.2) := by
    intro lo hi hb h2 h3
    constructor
    · intro hc
      have := (hbetween lo hi hb _ hc).2
      simp only at this
      linarith
    · intro hc
      have := (hbetween lo hi hb _ hc).1
      simp only at this
      linarith
  have hsame : ∀ lo hi : Rat, (∀ x ∈ lons (polysOf g), lo ≤ x ∧ x ≤ hi) → (hi ≤ p.1 + 360) → (p.1 - 360 < lo) →
      (covers g p ↔ covers g p ∨ covers g (p.1 + 360, p.2) ∨ covers g (p.1 - 360, p.2)) := by
    intro lo hi hb h2 h3
    obtain ⟨n1, n2⟩ := hout lo hi hb h2 h3
    simp only [n1, n2, or_false]
  cases field with
  | unknown =>
    simp only at h ha
    injection h with h
    subst h
    exact hsame (-180) 360 hall (by linarith) (by linarith)
  | wrapped =>
    simp only at ha
    cases hst : stateOf (lons (polysOf g)) with
    | unwrapped =>
      rw [hst] at h
      simp only [act] at h
      obtain ⟨e1, -⟩ := C93_wrap_partial meet g g' hg hr hl h
      have hpos := hs.1 hst
      have n2 : ¬ covers g (p.1 - 360, p.2) := by
        intro hc
        have := (hbetween 0 360 (fun x hx => ⟨hpos x hx, (hall x hx).2⟩) _ hc).1
        simp only at this
        linarith
      rw [e1 p ha.1 ha.2 a4 a5]
      simp only [n2, or_false]
    | wrapped =>
      rw [hst] at h
      simp only at h
      injection h with h
      subst h
      exact hsame (-180) 180 (fun x hx => ⟨(hall x hx).1, hs.2.1 (by rw [hst]; decide) x hx⟩) (by linarith) (by linarith)
    | unknown =>
      rw [hst] at h
      simp only at h
      injection h with h
      subst h
      exact hsame 0 180 (fun x hx => hs.2.2 hst x hx) (by linarith) (by linarith)
  | unwrapped =>
    simp only at ha
    cases hst : stateOf (lons (polysOf g)) with
    | wrapped =>
      rw [hst] at h
      simp only [act] at h
      have hle := hs.2.1 (by rw [hst]; decide)
      have hg2 : PlainGeom (-180) 180 g := by
        have hpl := plain_polysOf g _ _ hg
        have hq : ∀ q ∈ polysOf g, PlainPoly (-180) 180 q := fun q hq =>
          ⟨(hpl.2 q hq).holes, (hpl.2 q hq).closed, fun c hc => ⟨((hpl.2 q hq).within c hc).1, hle c.1 ((mem_lons _ _).2 ⟨q, hq, c, hc, rfl⟩)⟩⟩
        cases g with
        | poly q => exact hq q (List.mem_singleton.2 rfl)
        | multi qs => exact ⟨hg.1, hq⟩
        | point c => exact absurd hg id
        | points cs => exact absurd hg id
        | other => exact absurd hg id
      obtain ⟨e1, -⟩ := C93_unwrap_partial meet g g' hg2 h1 h
      have n1 : ¬ covers g (p.1 + 360, p.2) := by
        intro hc
        have := (hbetween (-180) 180 (fun x hx => ⟨(hall x hx).1, hle x hx⟩) _ hc).2
        simp only at this
        linarith
      rw [e1 p ha.1 ha.2.1 ha.2.2 a4 a5]
      simp only [n1, false_or]
    | unwrapped =>
      rw [hst] at h
      simp only at h
      injection h with h
      subst h
      exact hsame 0 360 (fun x hx => ⟨hs.1 hst x hx, (hall x hx).2⟩) (by linarith) (by linarith)
    | unknown =>
      rw [hst] at h
      simp only at h
      injection h with h
      subst h
      exact hsame 0 180 (fun x hx => hs.2.2 hst x hx) (by linarith) (by linarith)

/-- A wrapped rectangle for an unwrapped field, and an unwrapped one for a wrapped field. -/
example : prepareSubset rectMeet .unwrapped (.poly (rect (-10) 0 20 10)) = .ok (.multi [rect 350 0 360 10, rect 0 0 20 10]) ∧
    prepareSubset rectMeet .wrapped (.poly (rect 200 0 210 10)) = .ok (.poly (rect (-160) 0 (-150) 10)) ∧
    prepareSubset rectMeet .unknown (.poly (rect 200 0 210 10)) = .ok (.poly (rect 200 0 210 10)) := by decide +kernel

/-- A geometry from the western hemisphere to beyond 180 degrees is not brought to the convention of an unwrapped field: the place at
350 degrees is not in it, although it is the place at 10 degrees west. -/
theorem C93_straddle_counterexample :
    prepareSubset rectMeet .unwrapped (.poly (rect (-20) 0 190 10)) = .ok (.poly (rect (-20) 0 190 10)) ∧
    covers (.poly (rect (-20) 0 190 10)) (350 - 360, 5) ∧ ¬ covers (.poly (rect (-20) 0 190 10)) (350, 5) := by
  refine ⟨by decide +kernel, ⟨_, List.mem_singleton.2 rfl, ?_⟩, ?_⟩
  · rw [rect_covers _ _ _ _ (by norm_num) (by norm_num)]
    norm_num
  · rintro ⟨q, hq, hqp⟩
    rw [List.mem_singleton] at hq
    subst hq
    rw [rect_covers _ _ _ _ (by norm_num) (by norm_num)] at hqp
    norm_num at hqp

/-- A hole is lost: a place in it is in the wrapped polygon. -/
theorem C93_hole_counterexample :
    let q : Poly := { rect 200 0 230 30 with holes := [(rect 210 10 220 20).ring] }
    wrap rectMeet (.poly q) = .ok (.poly (rect (-160) 0 (-130) 30)) ∧
    ¬ covers (.poly q) (-145 + 360, 15) ∧ covers (.poly (rect (-160) 0 (-130) 30)) (-145, 15) := by
  refine ⟨by decide +kernel, ?_, ⟨_, List.mem_singleton.2 rfl, ?_⟩⟩
  · rintro ⟨q, hq, hqp⟩
    rw [List.mem_singleton] at hq
    subst hq
    have := hqp.2 _ (List.mem_singleton.2 rfl)
    revert this
    decide +kernel
  · rw [rect_covers _ _ _ _ (by norm_num) (by norm_num)]
    norm_num

/-- What is beyond 360 degrees, or beyond 180 degrees west, is lost when the geometry is cut. -/
theorem C93_outside_counterexample :
    wrap rectMeet (.poly (rect 170 0 370 10)) = .ok (.multi [rect 170 0 180 10, rect (-180) 0 0 10]) ∧
    unwrap rectMeet (.poly (rect (-190) 0 (-170) 10)) = .ok (.poly (rect 180 0 190 10)) ∧
    unwrap rectMeet (.poly (rect (-200) 0 (-190) 10)) = .error .indexError := by decide +kernel

/-- Two parts, of which one ends at 180 degrees and the other is east of it: cutting leaves a line, and an error is raised. -/
theorem C93_touch_counterexample (meet : Meet)
    (h : meet [rect 170 0 180 10, rect 185 0 190 10] rightClip = [.line, .poly (rect 185 0 190 10)]) :
    wrap meet (.multi [rect 170 0 180 10, rect 185 0 190 10]) = .error .attributeError := by
  unfold wrap wrapPolys
  have h1 : ¬ (180 < minX (lons [rect 170 0 180 10, rect 185 0 190 10]) ∧ 180 < maxX (lons [rect 170 0 180 10, rect 185 0 190 10])) := by
    decide +kernel
  have h2 : minX (lons [rect 170 0 180 10, rect 185 0 190 10]) ≤ 180 ∧ 180 < maxX (lons [rect 170 0 180 10, rect 185 0 190 10]) := by
    decide +kernel
  simp only [if_neg h1, if_pos h2, h]
  rfl

/-- A part that touches the western box in a point: the points are not dropped as the lines are, and an error is raised. -/
theorem C93_corner_counterexample (meet : Meet) (qs : List Poly) (pieces : List Piece)
    (h1 : minX (lons qs) ≤ 180) (h2 : 180 < maxX (lons qs)) (hl : meet qs leftClip = pieces) (hp : .point ∈ pieces) :
    ∃ e, wrap meet (.multi qs) = .error e := by
  unfold wrap wrapPolys
  simp only
  rw [if_neg (fun hc => absurd hc.1 (not_lt.2 h1)), if_pos ⟨h1, h2⟩]
  cases hs : shiftWrap (meet qs rightClip) with
  | error e => exact ⟨e, rfl⟩
  | ok right =>
    simp only
    have : polygons (meet qs leftClip) = .error .typeError := by
      rw [hl]
      clear hl
      induction pieces with
      | nil => cases hp
      | cons a ps ih =>
        cases a with
        | point => rfl
        | line =>
          rcases List.mem_cons.1 hp with hp | hp
          · cases hp
          · exact ih hp
        | poly q =>
          rcases List.mem_cons.1 hp with hp | hp
          · cases hp
          · simp only [polygons, ih hp]
    rw [this]
    exact ⟨_, rfl⟩

/-- The wrapped state: unwrapped if a longitude is above 180; else wrapped if one is negative; else unknown. -/
theorem C93_state (arr : List Rat) :
    (stateOf arr = .unwrapped ↔ ∃ x ∈ arr, 180 < x) ∧
    (stateOf arr = .wrapped ↔ (∃ x ∈ arr, x < 0) ∧ ∀ x ∈ arr, x ≤ 180) ∧
    (stateOf arr = .unknown ↔ ∀ x ∈ arr, 0 ≤ x ∧ x ≤ 180) := by
  unfold stateOf
  by_cases hu : ∃ x ∈ arr, 180 < x
  · have : (arr.any fun x => decide (180 < x)) = true := by
      obtain ⟨x, hx, h⟩ := hu
      exact List.any_eq_true.2 ⟨x, hx, decide_eq_true h⟩
    rw [if_pos this]
    obtain ⟨x, hx, h⟩ := hu
    refine ⟨⟨fun _ => ⟨x, hx, h⟩, fun _ => rfl⟩, ⟨fun hc => (by cases hc), fun hc => absurd (hc.2 x hx) (by linarith)⟩,
      ⟨fun hc => (by cases hc), fun hc => absurd (hc x hx).2 (by linarith)⟩⟩
  · have : ¬ (arr.any fun x => decide (180 < x)) = true := by
      intro hc
      obtain ⟨x, hx, h⟩ := List.any_eq_true.1 hc
      exact hu ⟨x, hx, of_decide_eq_true h⟩
    rw [if_neg this]
    have hle : ∀ x ∈ arr, x ≤ 180 := fun x hx => not_lt.1 fun hc => hu ⟨x, hx, hc⟩
    by_cases hw : ∃ x ∈ arr, x < 0
    · have h2 : (arr.any fun x => decide (x < 0)) = true := by
        obtain ⟨x, hx, h⟩ := hw
        exact List.any_eq_true.2 ⟨x, hx, decide_eq_true h⟩
      rw [if_pos h2]
      obtain ⟨x, hx, h⟩ := hw
      exact ⟨⟨fun hc => (by cases hc), fun hc => absurd hc hu⟩, ⟨fun _ => ⟨⟨x, hx, h⟩, hle⟩, fun _ => rfl⟩,
        ⟨fun hc => (by cases hc), fun hc => absurd (hc x hx).1 (by linarith)⟩⟩
    · have h2 : ¬ (arr.any fun x => decide (x < 0)) = true := by
        intro hc
        obtain ⟨x, hx, h⟩ := List.any_eq_true.1 hc
        exact hw ⟨x, hx, of_decide_eq_true h⟩
      rw [if_neg h2]
      exact ⟨⟨fun hc => (by cases hc), fun hc => absurd hc hu⟩, ⟨fun hc => (by cases hc), fun hc => absurd hc.1 hw⟩,
        ⟨fun _ x hx => ⟨not_lt.1 fun hc => hw ⟨x, hx, hc⟩, hle x hx⟩, fun _ => rfl⟩⟩

/-- Several processes find the state that one process would find, if the longitudes are not both negative and above 180, whatever the
order of the set they are gathered in. -/
theorem C93_ranks_partial (pick : List (Option WState) → Option WState) (parts : List (List Rat))
    (hpick : pick (parts.map fun a => some (stateOf a)) ∈ parts.map fun a => some (stateOf a))
    (h : (∀ x ∈ parts.flatten, 0 ≤ x) ∨ (∀ x ∈ parts.flatten, x ≤ 180)) :
    gatherState pick (parts.map fun a => some (stateOf a)) = some (stateOf parts.flatten) := by
  have hw : ∀ s, some s ∈ parts.map (fun a => some (stateOf a)) ↔ ∃ a ∈ parts, stateOf a = s := by
    intro s; simp
  unfold gatherState
  by_cases h1 : ∃ a ∈ parts, stateOf a = .wrapped
  · rw [if_pos (by rw [List.contains_iff_mem]; exact (hw _).2 h1)]
    obtain ⟨a, ha, hs⟩ := h1
    obtain ⟨⟨x, hx, hx0⟩, -⟩ := (C93_state a).2.1.1 hs
    have hle : ∀ x ∈ parts.flatten, x ≤ 180 := by
      rcases h with h | h
      · exact absurd (h x (List.mem_flatten.2 ⟨a, ha, hx⟩)) (by linarith)
      · exact h
    rw [(C93_state parts.flatten).2.1.2 ⟨⟨x, List.mem_flatten.2 ⟨a, ha, hx⟩, hx0⟩, hle⟩]
  · rw [if_neg (by rw [List.contains_iff_mem]; exact fun hc => h1 ((hw _).1 hc))]
    by_cases h2 : ∃ a ∈ parts, stateOf a = .unwrapped
    · rw [if_pos (by rw [List.contains_iff_mem]; exact (hw _).2 h2)]
      obtain ⟨a, ha, hs⟩ := h2
      obtain ⟨x, hx, hx0⟩ := (C93_state a).1.1 hs
      rw [(C93_state parts.flatten).1.2 ⟨x, List.mem_flatten.2 ⟨a, ha, hx⟩, hx0⟩]
    · rw [if_neg (by rw [List.contains_iff_mem]; exact fun hc => h2 ((hw _).1 hc))]
      have hall : ∀ a ∈ parts, stateOf a = .unknown := by
        intro a ha
        cases hs : stateOf a with
        | wrapped => exact absurd ⟨a, ha, hs⟩ h1
        | unwrapped => exact absurd ⟨a, ha, hs⟩ h2
        | unknown => rfl
      obtain ⟨a, ha, he⟩ := List.mem_map.1 hpick
      rw [← he, hall a ha, (C93_state parts.flatten).2.2.2]
      intro x hx
      obtain ⟨b, hb, hxb⟩ := List.mem_flatten.1 hx
      exact (C93_state b).2.2.1 (hall b hb) x hxb

example : gatherState (fun l => l.getD 0 none) ([[0, 90], [180, 270]].map fun a => some (stateOf a)) = some .unwrapped ∧
    (∀ x ∈ ([[0, 90], [180, 270]] : List (List Rat)).flatten, 0 ≤ x) := by decide +kernel

/-- With longitudes on both sides, one process finds another state than two processes; with an empty process the state may be
undefined, depending on the order of a set. -/
theorem C93_ranks_counterexample :
    stateOf [-10, 200] = .unwrapped ∧ (∀ pick, gatherState pick ([[-10], [200]].map fun a => some (stateOf a)) = some .wrapped) ∧
    gatherState (fun l => l.getD 0 none) [some .unknown, none] = some .unknown ∧
    gatherState (fun l => l.getD 1 none) [some .unknown, none] = none := by
  refine ⟨by decide +kernel, fun pick => ?_, by decide, by decide⟩
  have : ([[-10], [200]].map fun a => some (stateOf a)) = [some WState.wrapped, some .unwrapped] := by decide +kernel
  rw [this]
  rfl

/-- Something is wrapped exactly when it is unwrapped and should be wrapped, and unwrapped exactly when it is wrapped and should be
unwrapped; both ways to decide about it agree. -/
theorem C93_action (archetype ret : WState) :
    (wrapAction ret archetype = some .wrap ↔ ret = .unwrapped ∧ archetype = .wrapped) ∧
    (wrapAction ret archetype = some .unwrap ↔ ret = .wrapped ∧ archetype = .unwrapped) ∧
    prepareAction archetype ret = wrapAction ret archetype := by
  cases archetype <;> cases ret <;> decide

/-- Wrapping a variable of geometries: if no geometry is on the western side, every geometry that is not masked is wrapped by itself;
unwrapping likewise if none is beyond 180 degrees. -/
theorem C93_variable_partial (meet : Meet) (gs : List (Option Geom)) (hk : ∀ g, some g ∈ gs → g ≠ .other) :
    ((∀ g, some g ∈ gs → ∀ x ∈ coordsOf g, 0 ≤ x) → ∀ hs, wrapOrUnwrap meet .wrap false gs = .ok hs ↔
      hs.length = gs.length ∧ ∀ (i : Nat) g, gs[i]? = some g → match g with
        | none => hs[i]? = some none
        | some g => ∃ g', wrap meet g = .ok g' ∧ hs[i]? = some (some g')) ∧
    ((∀ g, some g ∈ gs → ∀ x ∈ coordsOf g, x ≤ 180) → ∀ hs, wrapOrUnwrap meet .unwrap false gs = .ok hs ↔
      hs.length = gs.length ∧ ∀ (i : Nat) g, gs[i]? = some g → match g with
        | none => hs[i]? = some none
        | some g => ∃ g', unwrap meet g = .ok g' ∧ hs[i]? = some (some g')) := by
  have hact : ∀ a (hs : List (Option Geom)) (gs : List (Option Geom)), actAll meet a gs = .ok hs ↔
      hs.length = gs.length ∧ ∀ (i : Nat) g, gs[i]? = some g → match g with
        | none => hs[i]? = some none
        | some g => ∃ g', act meet a g = .ok g' ∧ hs[i]? = some (some g') := by
    intro a hs gs
    induction gs generalizing hs with
    | nil =>
      constructor
      · intro h; injection h with h; subst h; exact ⟨rfl, fun i g hg => by simp at hg⟩
      · intro h
        have : hs = [] := List.length_eq_zero_iff.1 h.1
        rw [this]; rfl
    | cons g gs ih =>
      cases g with
      | none =>
        simp only [actAll]
        constructor
        · intro h
          cases hr : actAll meet a gs with
          | error e => rw [hr] at h; cases h
          | ok ws =>
            rw [hr] at h
            injection h with h
            subst h
            obtain ⟨h1, h2⟩ := (ih ws).1 hr
            refine ⟨by simp [h1], ?_⟩
            intro i g hg
            cases i with
            | zero =>
              simp only [List.getElem?_cons_zero, Option.some.injEq] at hg
              subst hg
              rfl
            | succ i =>
              simp only [List.getElem?_cons_succ] at hg ⊢
              exact h2 i g hg
        · rintro ⟨h1, h2⟩
          cases hs with
          | nil => simp at h1
          | cons w ws =>
            have hz := h2 0 none rfl
            simp only [List.getElem?_cons_zero, Option.some.injEq] at hz
            subst hz
            have : actAll meet a gs = .ok ws := (ih ws).2 ⟨by simpa using h1, fun i g hg => by
              have := h2 (i + 1) g (by simpa using hg)
              simpa using this⟩
            rw [this]
      | some g =>
        simp only [actAll]
        constructor
        · intro h
          cases ha : act meet a g with
          | error e => rw [ha] at h; cases h
          | ok g' =>
            rw [ha] at h
            simp only at h
            cases hr : actAll meet a gs with
            | error e => rw [hr] at h; cases h
            | ok ws =>
              rw [hr] at h
              injection h with h
              subst h
              obtain ⟨h1, h2⟩ := (ih ws).1 hr
              refine ⟨by simp [h1], ?_⟩
              intro i x hx
              cases i with
              | zero =>
                simp only [List.getElem?_cons_zero, Option.some.injEq] at hx
                subst hx
                exact ⟨g', ha, rfl⟩
              | succ i =>
                simp only [List.getElem?_cons_succ] at hx ⊢
                exact h2 i x hx
        · rintro ⟨h1, h2⟩
          cases hs with
          | nil => simp at h1
          | cons w ws =>
            obtain ⟨g', ha, hz⟩ := h2 0 (some g) rfl
            simp only [List.getElem?_cons_zero, Option.some.injEq] at hz
            subst hz
            have : actAll meet a gs = .ok ws := (ih ws).2 ⟨by simpa using h1, fun i g hg => by
              have := h2 (i + 1) g (by simpa using hg)
              simpa using this⟩
            rw [ha, this]
  have hst : ∀ (bad : WState) (gs : List (Option Geom)), (∀ g, some g ∈ gs → g ≠ .other) → (∀ g, some g ∈ gs → stateOf (coordsOf g) ≠ bad) → bad ≠ .unknown →
      ∃ s, stateOfGeoms gs = .ok s ∧ s ≠ bad := by
    intro bad gs hk hb hbu
    induction gs with
    | nil => exact ⟨.unknown, rfl, fun h => hbu h.symm⟩
    | cons g gs ih =>
      have ih := ih (fun g hg => hk g (List.mem_cons_of_mem _ hg)) (fun g hg => hb g (List.mem_cons_of_mem _ hg))
      cases g with
      | none => exact ih
      | some g =>
        have hg : stateOfGeom g = .ok (stateOf (coordsOf g)) := by
          have := hk g List.mem_cons_self
          cases g with
          | other => exact absurd rfl this
          | poly q => rfl
          | multi qs => rfl
          | point c => rfl
          | points cs => rfl
        have hbg := hb g List.mem_cons_self
        unfold stateOfGeoms
        rw [hg]
        cases hs : stateOf (coordsOf g) with
        | unknown => exact ih
        | wrapped => exact ⟨.wrapped, rfl, by rw [← hs]; exact hbg⟩
        | unwrapped => exact ⟨.unwrapped, rfl, by rw [← hs]; exact hbg⟩
  constructor
  · intro hpos hs
    obtain ⟨s, h1, h2⟩ := hst .wrapped gs hk (fun g hg hc => by
      obtain ⟨⟨x, hx, hx0⟩, -⟩ := (C93_state _).2.1.1 hc
      exact absurd (hpos g hg x hx) (by linarith)) (by decide)
    unfold wrapOrUnwrap
    rw [h1]
    simp only
    have : sameNumber s .wrap = false := by cases s with | wrapped => exact absurd rfl h2 | unwrapped => rfl | unknown => rfl
    rw [this]
    exact hact .wrap hs gs
  · intro hle hs
    obtain ⟨s, h1, h2⟩ := hst .unwrapped gs hk (fun g hg hc => by
      obtain ⟨x, hx, hx0⟩ := (C93_state _).1.1 hc
      exact absurd (hle g hg x hx) (by linarith)) (by decide)
    unfold wrapOrUnwrap
    rw [h1]
    simp only
    have : sameNumber s .unwrap = false := by cases s with | unwrapped => exact absurd rfl h2 | wrapped => rfl | unknown => rfl
    rw [this]
    exact hact .unwrap hs gs

example : wrapOrUnwrap rectMeet .wrap false [some (.point (10, 0)), none, some (.poly (rect 200 0 210 10))] =
    .ok [some (.point (10, 0)), none, some (.poly (rect (-160) 0 (-150) 10))] := by decide +kernel

/-- The first geometry that tells decides for all: with geometries in both conventions nothing is wrapped, unless it is forced. -/
theorem C93_variable_counterexample :
    wrapOrUnwrap rectMeet .wrap false [some (.point (-10, 0)), some (.point (200, 0))] = .ok [some (.point (-10, 0)), some (.point (200, 0))] ∧
    wrapOrUnwrap rectMeet .wrap false [some (.point (200, 0)), some (.point (-10, 0))] = .ok [some (.point (-160, 0)), some (.point (-10, 0))] ∧
    wrapOrUnwrap rectMeet .wrap true [some (.point (-10, 0)), some (.point (200, 0))] = .ok [some (.point (-10, 0)), some (.point (-160, 0))] := by
  decide +kernel

/-- A bounding box that starts in the western hemisphere is prepared for unwrapped coordinates: a place between 0 and 360 degrees is in
the prepared boxes exactly when it, or the same place one turn further west, is in the box. -/
theorem C93_box_partial (b : Box) (h2 : 0 ≤ b.maxx) (p : Rat × Rat) (hp : 0 ≤ p.1 ∧ p.1 ≤ 360) :
    inBoxes (prepareBox .unwrapped b) p ↔ inBox b p ∨ (b.minx < 0 ∧ inBox b (p.1 - 360, p.2)) := by
  unfold prepareBox inBoxes
  simp only [if_true]
  by_cases hb : b.minx < 0
  · rw [if_pos hb]
    simp only [List.mem_cons, List.not_mem_nil, or_false, exists_eq_or_imp, exists_eq_left, hb, true_and]
    constructor
    · rintro (h | h)
      · exact .inl h
      · right
        obtain ⟨a1, a2, a3, a4⟩ := h
        exact ⟨by simp only at a1 ⊢; linarith, by simp only; linarith [hp.2], a3, a4⟩
    · rintro (h | h)
      · exact .inl h
      · right
        obtain ⟨a1, a2, a3, a4⟩ := h
        exact ⟨by simp only at a1 ⊢; linarith, by simp only; linarith [hp.2], a3, a4⟩
  · rw [if_neg hb]
    simp [hb]

example : prepareBox .unwrapped ⟨-20, 0, 200, 10⟩ = [⟨-20, 0, 200, 10⟩, ⟨340, 0, 370, 10⟩] ∧
    prepareBox .wrapped ⟨-20, 0, 100, 10⟩ = [⟨-20, 0, 100, 10⟩] := by decide +kernel

/-- A box that goes beyond 360 degrees is not prepared: the places just east of 0 degrees are missed.  A box that is all in the western
hemisphere but said to be unwrapped is made too large. -/
theorem C93_box_counterexample :
    (inBox ⟨350, 0, 365, 10⟩ (2 + 360, 5) ∧ ¬ inBoxes (prepareBox .unwrapped ⟨350, 0, 365, 10⟩) (2, 5)) ∧
    (inBoxes (prepareBox .unwrapped ⟨-30, 0, -20, 10⟩) (355, 5) ∧ ¬ inBox ⟨-30, 0, -20, 10⟩ (355 - 360, 5)) := by
  have e1 : prepareBox .unwrapped ⟨350, 0, 365, 10⟩ = [⟨350, 0, 365, 10⟩] := by decide +kernel
  have e2 : prepareBox .unwrapped ⟨-30, 0, -20, 10⟩ = [⟨-30, 0, -20, 10⟩, ⟨330, 0, 370, 10⟩] := by decide +kernel
  rw [e1, e2]
  unfold inBoxes inBox
  norm_num

/-- A grid is asked with the box as it is, unstructured coordinates with the prepared boxes: the same box misses, on a grid, what it
finds among unstructured coordinates. -/
theorem C93_grid_counterexample :
    ¬ inBoxes (gridBoxes .unwrapped ⟨-20, 0, 200, 10⟩) (350, 5) ∧ inBoxes (geomcBoxes .unwrapped ⟨-20, 0, 200, 10⟩) (350, 5) := by
  have e2 : geomcBoxes .unwrapped ⟨-20, 0, 200, 10⟩ = [⟨-20, 0, 200, 10⟩, ⟨340, 0, 370, 10⟩] := by decide +kernel
  rw [e2]
  unfold gridBoxes inBoxes inBox
  norm_num

end Ocgis.Props
