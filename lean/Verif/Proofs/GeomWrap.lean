import Verif.Spec.GeomWrap
import Mathlib.Algebra.Order.Field.Rat
import Mathlib.Algebra.Order.Field.Basic
import Mathlib.Tactic.Linarith
import Mathlib.Tactic.Ring

/-! Lemmas about wrapping geometries. -/

namespace Ocgis.GeomWrap
open Ocgis Ocgis.Spec

theorem crosses_shift (d : Rat) (a b p : Rat × Rat) : crosses (a.1 + d, a.2) (b.1 + d, b.2) (p.1 + d, p.2) = crosses a b p := by
  unfold crosses
  simp only
  congr 1
  rw [decide_eq_decide]
  generalize (p.2 - a.2) / (b.2 - a.2) = t
  constructor
  · intro h; nlinarith
  · intro h; nlinarith

theorem inRing_shift (d : Rat) (r : List (Rat × Rat)) (p : Rat × Rat) :
    inRing (r.map fun c => (c.1 + d, c.2)) (p.1 + d, p.2) = inRing r p := by
  induction r with
  | nil => rfl
  | cons a r ih =>
    cases r with
    | nil => rfl
    | cons b r =>
      simp only [List.map_cons, inRing] at ih ⊢
      rw [ih, crosses_shift d a b p]

/-- Where an edge that spans the latitude meets it, between its ends. -/
theorem straddle_between (a b : Rat × Rat) (y : Rat) (h : decide (a.2 ≤ y) ≠ decide (b.2 ≤ y)) :
    ∃ t : Rat, (y - a.2) / (b.2 - a.2) = t ∧ 0 ≤ t ∧ t ≤ 1 := by
  refine ⟨_, rfl, ?_⟩
  by_cases h1 : a.2 ≤ y
  · have h2 : ¬ b.2 ≤ y := by
      intro h2; exact h (by rw [decide_eq_true h1, decide_eq_true h2])
    rw [not_le] at h2
    have hd : 0 < b.2 - a.2 := by linarith
    exact ⟨div_nonneg (by linarith) hd.le, (div_le_one hd).2 (by linarith)⟩
  · have h2 : b.2 ≤ y := by
      apply Classical.byContradiction
      intro h2
      exact h (by rw [decide_eq_false h1, decide_eq_false h2])
    rw [not_le] at h1
    have hd : b.2 - a.2 < 0 := by linarith
    refine ⟨div_nonneg_of_nonpos (by linarith) hd.le, ?_⟩
    rw [div_le_one_of_neg hd]
    linarith

theorem crosses_right (a b p : Rat × Rat) (ha : a.1 ≤ p.1) (hb : b.1 ≤ p.1) : crosses a b p = false := by
  unfold crosses
  by_cases h : decide (a.2 ≤ p.2) = decide (b.2 ≤ p.2)
  · rw [h]; simp
  · obtain ⟨t, ht, h0, h1⟩ := straddle_between a b p.2 h
    rw [ht]
    have : ¬ p.1 < a.1 + t * (b.1 - a.1) := by
      rw [not_lt]
      nlinarith
    rw [decide_eq_false this, Bool.and_false]

theorem crosses_left (a b p : Rat × Rat) (ha : p.1 < a.1) (hb : p.1 < b.1) :
    crosses a b p = (decide (a.2 ≤ p.2) != decide (b.2 ≤ p.2)) := by
  unfold crosses
  by_cases h : decide (a.2 ≤ p.2) = decide (b.2 ≤ p.2)
  · rw [h]; simp
  · obtain ⟨t, ht, h0, h1⟩ := straddle_between a b p.2 h
    rw [ht]
    have : p.1 < a.1 + t * (b.1 - a.1) := by
      have e : a.1 + t * (b.1 - a.1) - p.1 = (1 - t) * (a.1 - p.1) + t * (b.1 - p.1) := by ring
      by_cases ht0 : t = 0
      · subst ht0; linarith
      · have : 0 < t := lt_of_le_of_ne h0 (Ne.symm ht0)
        have h2 : 0 ≤ (1 - t) * (a.1 - p.1) := mul_nonneg (by linarith) (by linarith)
        have h3 : 0 < t * (b.1 - p.1) := mul_pos this (by linarith)
        linarith
    rw [decide_eq_true this, Bool.and_true]

theorem inRing_right (r : List (Rat × Rat)) (p : Rat × Rat) (h : ∀ c ∈ r, c.1 ≤ p.1) : inRing r p = false := by
  induction r with
  | nil => rfl
  | cons a r ih =>
    cases r with
    | nil => rfl
    | cons b r =>
      simp only [inRing]
      rw [ih (fun c hc => h c (List.mem_cons_of_mem _ hc)),
        crosses_right a b p (h a List.mem_cons_self) (h b (List.mem_cons_of_mem _ List.mem_cons_self))]
      rfl

theorem inRing_left (r : List (Rat × Rat)) (p : Rat × Rat) (h : ∀ c ∈ r, p.1 < c.1) (a z : Rat × Rat) (ha : r.head? = some a)
    (hz : r.getLast? = some z) : inRing r p = (decide (a.2 ≤ p.2) != decide (z.2 ≤ p.2)) := by
  induction r generalizing a with
  | nil => cases ha
  | cons a' r ih =>
    simp only [List.head?_cons, Option.some.injEq] at ha
    subst ha
    cases r with
    | nil =>
      simp only [List.getLast?_singleton, Option.some.injEq] at hz
      subst hz
      simp [inRing]
    | cons b r =>
      rw [List.getLast?_cons_cons] at hz
      simp only [inRing]
      rw [ih (fun c hc => h c (List.mem_cons_of_mem _ hc)) b rfl hz,
        crosses_left a' b p (h a' List.mem_cons_self) (h b (List.mem_cons_of_mem _ List.mem_cons_self))]
      cases decide (a'.2 ≤ p.2) <;> cases decide (b.2 ≤ p.2) <;> cases decide (z.2 ≤ p.2) <;> rfl

/-- A point of a polygon is between its coordinates. -/
theorem covers_within (q : Poly) (lo hi : Rat) (hc : ClosedRing q.ring) (hw : ∀ c ∈ q.ring, lo ≤ c.1 ∧ c.1 ≤ hi) (p : Rat × Rat)
    (h : polyCovers q p) : lo ≤ p.1 ∧ p.1 < hi := by
  constructor
  · apply Classical.byContradiction
    intro hn
    rw [not_le] at hn
    have hne := hc.1
    cases hh : q.ring.head? with
    | none => exact hne (List.head?_eq_none_iff.1 hh)
    | some a =>
      have := inRing_left q.ring p (fun c hcm => lt_of_lt_of_le hn (hw c hcm).1) a a hh (by rw [← hc.2]; exact hh)
      rw [h.1] at this
      simp at this
  · apply Classical.byContradiction
    intro hn
    rw [not_lt] at hn
    have := inRing_right q.ring p (fun c hcm => le_trans (hw c hcm).2 hn)
    rw [h.1] at this
    cases this

theorem covers_shift (d : Rat) (q : Poly) (hq : q.holes = []) (p : Rat × Rat) : polyCovers (shiftPoly d q) p ↔ polyCovers q (p.1 - d, p.2) := by
  unfold polyCovers shiftPoly
  simp only [hq, List.not_mem_nil, false_imp_iff, implies_true, and_true]
  have := inRing_shift d q.ring (p.1 - d, p.2)
  simp only [sub_add_cancel] at this
  rw [this]

theorem shiftPieces_ok (d : Rat) (ps : List Piece) (qs : List Poly) (h : shiftPieces d ps = .ok qs) (q : Poly) :
    q ∈ qs ↔ ∃ r, .poly r ∈ ps ∧ q = shiftPoly d r := by
  induction ps generalizing qs with
  | nil => injection h with h; subst h; simp
  | cons a ps ih =>
    cases a with
    | line => cases h
    | point => cases h
    | poly r =>
      unfold shiftPieces at h
      cases hr : shiftPieces d ps with
      | error e => rw [hr] at h; cases h
      | ok rs =>
        rw [hr] at h
        injection h with h
        subst h
        rw [List.mem_cons, ih rs hr]
        constructor
        · rintro (rfl | ⟨s, hs, rfl⟩)
          · exact ⟨r, List.mem_cons_self, rfl⟩
          · exact ⟨s, List.mem_cons_of_mem _ hs, rfl⟩
        · rintro ⟨s, hs, rfl⟩
          rcases List.mem_cons.1 hs with hs | hs
          · injection hs with hs; subst hs; exact .inl rfl
          · exact .inr ⟨s, hs, rfl⟩

theorem shiftPieces_total (d : Rat) (ps : List Piece) (h : ∀ x ∈ ps, ∃ q, x = .poly q) : ∃ qs, shiftPieces d ps = .ok qs := by
  induction ps with
  | nil => exact ⟨[], rfl⟩
  | cons a ps ih =>
    obtain ⟨q, rfl⟩ := h a List.mem_cons_self
    obtain ⟨qs, hqs⟩ := ih (fun x hx => h x (List.mem_cons_of_mem _ hx))
    exact ⟨shiftPoly d q :: qs, by simp only [shiftPieces, hqs]⟩

theorem shiftWrap_ok (ps : List Piece) (qs : List Poly) (h : shiftWrap ps = .ok qs) : shiftPieces (-360) ps = .ok qs := by
  unfold shiftWrap at h
  split at h
  · cases h
  · cases h
  · exact h

theorem shiftUnwrap_ok (ps : List Piece) (qs : List Poly) (h : shiftUnwrap ps = .ok qs) : shiftPieces 360 ps = .ok qs := by
  unfold shiftUnwrap at h
  split at h
  · cases h
  · cases h
  · exact h

theorem polygons_ok (ps : List Piece) (qs : List Poly) (h : polygons ps = .ok qs) (q : Poly) : q ∈ qs ↔ .poly q ∈ ps := by
  induction ps generalizing qs with
  | nil => injection h with h; subst h; simp
  | cons a ps ih =>
    cases a with
    | point => cases h
    | line =>
      rw [ih qs h]
      simp
    | poly r =>
      unfold polygons at h
      cases hr : polygons ps with
      | error e => rw [hr] at h; cases h
      | ok rs =>
        rw [hr] at h
        injection h with h
        subst h
        simp [ih rs hr]

theorem polygons_total (ps : List Piece) (h : .point ∉ ps) : ∃ qs, polygons ps = .ok qs := by
  induction ps with
  | nil => exact ⟨[], rfl⟩
  | cons a ps ih =>
    rw [List.mem_cons, not_or] at h
    obtain ⟨qs, hqs⟩ := ih h.2
    cases a with
    | point => exact absurd rfl h.1
    | line => exact ⟨qs, hqs⟩
    | poly q => exact ⟨q :: qs, by simp only [polygons, hqs]⟩

theorem minX_le (l : List Rat) (x : Rat) (h : x ∈ l) : minX l ≤ x := by
  induction l with
  | nil => cases h
  | cons a l ih =>
    cases l with
    | nil =>
      rw [List.mem_singleton] at h
      subst h
      exact le_refl _
    | cons b l =>
      show min a (minX (b :: l)) ≤ x
      rcases List.mem_cons.1 h with rfl | h
      · exact min_le_left _ _
      · exact le_trans (min_le_right _ _) (ih h)

theorem le_maxX (l : List Rat) (x : Rat) (h : x ∈ l) : x ≤ maxX l := by
  induction l with
  | nil => cases h
  | cons a l ih =>
    cases l with
    | nil =>
      rw [List.mem_singleton] at h
      subst h
      exact le_refl _
    | cons b l =>
      show x ≤ max a (maxX (b :: l))
      rcases List.mem_cons.1 h with rfl | h
      · exact le_max_left _ _
      · exact le_trans (ih h) (le_max_right _ _)

theorem maxX_mem (l : List Rat) (h : l ≠ []) : maxX l ∈ l := by
  induction l with
  | nil => exact absurd rfl h
  | cons a l ih =>
    cases l with
    | nil => exact List.mem_singleton.2 rfl
    | cons b l =>
      show max a (maxX (b :: l)) ∈ _
      rcases max_choice a (maxX (b :: l)) with h1 | h1 <;> rw [h1]
      · exact List.mem_cons_self
      · exact List.mem_cons_of_mem _ (ih (by simp))

theorem minX_mem (l : List Rat) (h : l ≠ []) : minX l ∈ l := by
  induction l with
  | nil => exact absurd rfl h
  | cons a l ih =>
    cases l with
    | nil => exact List.mem_singleton.2 rfl
    | cons b l =>
      show min a (minX (b :: l)) ∈ _
      rcases min_choice a (minX (b :: l)) with h1 | h1 <;> rw [h1]
      · exact List.mem_cons_self
      · exact List.mem_cons_of_mem _ (ih (by simp))

theorem mem_lons (ps : List Poly) (x : Rat) : x ∈ lons ps ↔ ∃ q ∈ ps, ∃ c ∈ q.ring, c.1 = x := by
  unfold lons
  simp only [List.mem_flatMap, List.mem_map]

theorem polysCover_nil (p : Rat × Rat) : ¬ polysCover [] p := by
  rintro ⟨q, hq, -⟩; cases hq

theorem covers_polysOf (g : Geom) (lo hi : Rat) (hg : PlainGeom lo hi g) (p : Rat × Rat) : covers g p ↔ polysCover (polysOf g) p := by
  cases g with
  | poly q => rfl
  | multi qs => rfl
  | point c => exact absurd hg id
  | points cs => exact absurd hg id
  | other => exact absurd hg id

theorem plain_polysOf (g : Geom) (lo hi : Rat) (hg : PlainGeom lo hi g) : polysOf g ≠ [] ∧ ∀ q ∈ polysOf g, PlainPoly lo hi q := by
  cases g with
  | poly q => exact ⟨by simp [polysOf], fun r hr => by rw [polysOf, List.mem_singleton] at hr; subst hr; exact hg⟩
  | multi qs => exact hg
  | point c => exact absurd hg id
  | points cs => exact absurd hg id
  | other => exact absurd hg id

/-- The polygons of what `wrapPolys` returns. -/
theorem wrapPolys_spec (meet : Meet) (g : Geom) (again : List Poly → Geom) (ps : List Poly)
    (hagain : ∀ p, covers (again (ps.map (shiftPoly (-360)))) p ↔ polysCover (ps.map (shiftPoly (-360))) p)
    (hg : ∀ p, covers g p ↔ polysCover ps p) (hps : ∀ q ∈ ps, PlainPoly (-180) 360 q)
    (hr : CutsWell meet ps rightClip) (hl : CutOf ps leftClip (meet ps leftClip)) (g' : Geom) (h : wrapPolys meet g again ps = .ok g') :
    (∀ p : Rat × Rat, -180 < p.1 → p.1 < 180 → -90 < p.2 → p.2 < 90 → (covers g' p ↔ polysCover ps p ∨ polysCover ps (p.1 + 360, p.2))) ∧
    (∀ p, covers g' p → -180 ≤ p.1 ∧ p.1 < 180) := by
  have hcov : ∀ p, polysCover ps p → -180 ≤ p.1 ∧ p.1 < 360 := by
    rintro p ⟨q, hq, hqp⟩
    exact covers_within q _ _ (hps q hq).closed (hps q hq).within p hqp
  unfold wrapPolys at h
  split at h
  · rename_i hall
    injection h with h
    subst h
    have hlow : ∀ p, polysCover ps p → 180 < p.1 := by
      rintro p ⟨q, hq, hqp⟩
      have hw := covers_within q (minX (lons ps)) 360 (hps q hq).closed
        (fun c hc => ⟨minX_le _ _ ((mem_lons ps c.1).2 ⟨q, hq, c, hc, rfl⟩), ((hps q hq).within c hc).2⟩) p hqp
      exact lt_of_lt_of_le hall.1 hw.1
    have hsh : ∀ p, covers (again (ps.map (shiftPoly (-360)))) p ↔ polysCover ps (p.1 + 360, p.2) := by
      intro p
      rw [hagain]
      constructor
      · rintro ⟨q, hq, hqp⟩
        obtain ⟨r, hr', rfl⟩ := List.mem_map.1 hq
        refine ⟨r, hr', ?_⟩
        have := (covers_shift (-360) r (hps r hr').holes p).1 hqp
        simpa using this
      · rintro ⟨r, hr', hrp⟩
        refine ⟨_, List.mem_map.2 ⟨r, hr', rfl⟩, (covers_shift (-360) r (hps r hr').holes p).2 ?_⟩
        simpa using hrp
    refine ⟨fun p h1 h2 h3 h4 => ?_, fun p hp => ?_⟩
    · rw [hsh]
      constructor
      · exact .inr
      · rintro (h5 | h5)
        · exact absurd (hlow p h5) (by linarith)
        · exact h5
    · have h5 := (hsh p).1 hp
      have h6 := hlow _ h5
      have h7 := (hcov _ h5).2
      simp only at h6 h7
      constructor <;> linarith
  · split at h
    · rename_i hall
      cases hsw : shiftWrap (meet ps rightClip) with
      | error e => rw [hsw] at h; cases h
      | ok right =>
        rw [hsw] at h
        simp only at h
        cases hpl : polygons (meet ps leftClip) with
        | error e => rw [hpl] at h; cases h
        | ok left =>
          rw [hpl] at h
          injection h with h
          subst h
          have hR := shiftPieces_ok _ _ _ (shiftWrap_ok _ _ hsw)
          have hL := polygons_ok _ _ hpl
          refine ⟨fun p h1 h2 h3 h4 => ?_, fun p hp => ?_⟩
          · constructor
            · rintro ⟨q, hq, hqp⟩
              rcases List.mem_append.1 hq with hq | hq
              · exact .inl (hl.inside q ((hL q).1 hq) p hqp)
              · obtain ⟨r, hr1, rfl⟩ := (hR q).1 hq
                right
                have := (covers_shift (-360) r (hr.2 r hr1) p).1 hqp
                exact hr.1.inside r hr1 _ (by simpa using this)
            · rintro (h5 | h5)
              · obtain ⟨q, hq, hqp⟩ := hl.onto p h1 h2 h3 h4 h5
                exact ⟨q, List.mem_append_left _ ((hL q).2 hq), hqp⟩
              · have h6 := (hcov _ h5).2
                simp only at h6
                obtain ⟨r, hr1, hrp⟩ := hr.1.onto (p.1 + 360, p.2) (by show (180 : Rat) < p.1 + 360; linarith) (by show p.1 + 360 < (360 : Rat); linarith) h3 h4 h5
                refine ⟨_, List.mem_append_right _ ((hR _).2 ⟨r, hr1, rfl⟩), (covers_shift (-360) r (hr.2 r hr1) p).2 ?_⟩
                simpa using hrp
          · obtain ⟨q, hq, hqp⟩ := hp
            rcases List.mem_append.1 hq with hq | hq
            · have hm := (hL q).1 hq
              exact covers_within q _ _ (hl.closed q hm) (hl.within q hm) p hqp
            · obtain ⟨r, hr1, rfl⟩ := (hR q).1 hq
              have h5 := (covers_shift (-360) r (hr.2 r hr1) p).1 hqp
              have h6 := covers_within r _ _ (hr.1.closed r hr1) (hr.1.within r hr1) _ h5
              simp only [rightClip] at h6
              constructor <;> linarith [h6.1, h6.2]
    · rename_i hn1 hn2
      injection h with h
      subst h
      have hmax : maxX (lons ps) ≤ 180 := by
        apply Classical.byContradiction
        intro hc
        rw [not_le] at hc
        rcases le_or_gt (minX (lons ps)) 180 with h5 | h5
        · exact hn2 ⟨h5, hc⟩
        · exact hn1 ⟨h5, hc⟩
      have hhigh : ∀ p, polysCover ps p → p.1 < 180 := by
        rintro p ⟨q, hq, hqp⟩
        exact (covers_within q (-180) 180 (hps q hq).closed
          (fun c hc => ⟨((hps q hq).within c hc).1, le_trans (le_maxX _ _ ((mem_lons ps c.1).2 ⟨q, hq, c, hc, rfl⟩)) hmax⟩) p hqp).2
      refine ⟨fun p h1 h2 h3 h4 => ?_, fun p hp => ?_⟩
      · rw [hg]
        constructor
        · exact .inl
        · rintro (h5 | h5)
          · exact h5
          · have := hhigh _ h5
            simp only at this
            exact absurd this (by linarith)
      · exact ⟨(hcov p ((hg p).1 hp)).1, hhigh p ((hg p).1 hp)⟩

theorem wrap_spec (meet : Meet) (g g' : Geom) (hg : PlainGeom (-180) 360 g) (hr : CutsWell meet (polysOf g) rightClip)
    (hl : CutOf (polysOf g) leftClip (meet (polysOf g) leftClip)) (h : wrap meet g = .ok g') :
    (∀ p : Rat × Rat, -180 < p.1 → p.1 < 180 → -90 < p.2 → p.2 < 90 → (covers g' p ↔ covers g p ∨ covers g (p.1 + 360, p.2))) ∧
    (∀ p, covers g' p → -180 ≤ p.1 ∧ p.1 < 180) := by
  cases g with
  | poly q =>
    exact wrapPolys_spec meet (.poly q) (fun ps => .poly (ps.headD ⟨[], []⟩)) [q] (fun p => Iff.rfl) (fun p => Iff.rfl)
      (fun r hr' => by rw [List.mem_singleton] at hr'; subst hr'; exact hg) hr hl g' h
  | multi qs => exact wrapPolys_spec meet (.multi qs) .multi qs (fun p => Iff.rfl) (fun p => Iff.rfl) hg.2 hr hl g' h
  | point c => exact absurd hg id
  | points cs => exact absurd hg id
  | other => exact absurd hg id

/-- The polygons of what `unwrapPoly` returns. -/
theorem unwrapPoly_spec (meet : Meet) (q : Poly) (hq : PlainPoly (-180) 180 q)
    (h1 : CutsWell meet [q] clip1) (h2 : CutOf [q] clip2 (meet [q] clip2)) (qs : List Poly) (h : unwrapPoly meet q = .ok qs) :
    (∀ p : Rat × Rat, 0 < p.1 → p.1 < 360 → p.1 ≠ 180 → -90 < p.2 → p.2 < 90 →
      (polysCover qs p ↔ polyCovers q p ∨ polyCovers q (p.1 - 360, p.2))) ∧
    (∀ p, polysCover qs p → 0 ≤ p.1 ∧ p.1 < 360) := by
  have hcov : ∀ p, polyCovers q p → -180 ≤ p.1 ∧ p.1 < 180 := fun p hp => covers_within q _ _ hq.closed hq.within p hp
  have hone : ∀ p, polysCover [q] p ↔ polyCovers q p := by
    intro p
    constructor
    · rintro ⟨r, hr, hrp⟩
      rw [List.mem_singleton] at hr
      subst hr
      exact hrp
    · intro hp; exact ⟨q, List.mem_singleton.2 rfl, hp⟩
  unfold unwrapPoly at h
  split at h
  · cases hs : shiftUnwrap (meet [q] clip1) with
    | error e => rw [hs] at h; cases h
    | ok left =>
      rw [hs] at h
      simp only at h
      cases hp : polygons (meet [q] clip2) with
      | error e => rw [hp] at h; cases h
      | ok right =>
        rw [hp] at h
        injection h with h
        subst h
        have hL := shiftPieces_ok _ _ _ (shiftUnwrap_ok _ _ hs)
        have hR := polygons_ok _ _ hp
        refine ⟨fun p a1 a2 a3 a4 a5 => ?_, fun p hp => ?_⟩
        · constructor
          · rintro ⟨r, hr, hrp⟩
            rcases List.mem_append.1 hr with hr | hr
            · obtain ⟨s, hs1, rfl⟩ := (hL r).1 hr
              right
              exact (hone _).1 (h1.1.inside s hs1 _ ((covers_shift 360 s (h1.2 s hs1) p).1 hrp))
            · left
              exact (hone _).1 (h2.inside r ((hR r).1 hr) p hrp)
          · rintro (h5 | h5)
            · obtain ⟨r, hr, hrp⟩ := h2.onto p a1 (hcov p h5).2 a4 a5 ((hone _).2 h5)
              exact ⟨r, List.mem_append_right _ ((hR r).2 hr), hrp⟩
            · have h6 := (hcov _ h5).1
              simp only at h6
              have h7 : (180 : Rat) < p.1 := lt_of_le_of_ne (by linarith) (Ne.symm a3)
              obtain ⟨s, hs1, hsp⟩ := h1.1.onto (p.1 - 360, p.2) (by show (-180 : Rat) < p.1 - 360; linarith)
                (by show p.1 - 360 < (0 : Rat); linarith) a4 a5 ((hone _).2 h5)
              exact ⟨_, List.mem_append_left _ ((hL _).2 ⟨s, hs1, rfl⟩), (covers_shift 360 s (h1.2 s hs1) p).2 hsp⟩
        · obtain ⟨r, hr, hrp⟩ := hp
          rcases List.mem_append.1 hr with hr | hr
          · obtain ⟨s, hs1, rfl⟩ := (hL r).1 hr
            have h5 := (covers_shift 360 s (h1.2 s hs1) p).1 hrp
            have h6 := covers_within s _ _ (h1.1.closed s hs1) (h1.1.within s hs1) _ h5
            simp only [clip1] at h6
            constructor <;> linarith [h6.1, h6.2]
          · have hm := (hR r).1 hr
            have h6 := covers_within r _ _ (h2.closed r hm) (h2.within r hm) p hrp
            simp only [clip2] at h6
            constructor <;> linarith [h6.1, h6.2]
  · rename_i hn
    injection h with h
    subst h
    have hpos : ∀ p, polyCovers q p → 0 ≤ p.1 := by
      intro p hp
      refine (covers_within q 0 180 hq.closed (fun c hc => ⟨?_, (hq.within c hc).2⟩) p hp).1
      apply Classical.byContradiction
      intro hc0
      rw [not_le] at hc0
      apply hn
      unfold shouldUnwrap
      rw [List.any_eq_true]
      exact ⟨c, hc, decide_eq_true hc0⟩
    refine ⟨fun p a1 a2 a3 a4 a5 => ?_, fun p hp => ?_⟩
    · rw [hone]
      constructor
      · exact .inl
      · rintro (h5 | h5)
        · exact h5
        · have := hpos _ h5
          simp only at this
          exact absurd this (by linarith)
    · have h5 := (hone p).1 hp
      exact ⟨hpos p h5, by linarith [(hcov p h5).2]⟩

theorem unwrapEach_spec (meet : Meet) (ps : List Poly) (hps : ∀ q ∈ ps, PlainPoly (-180) 180 q)
    (h1 : ∀ q ∈ ps, CutsWell meet [q] clip1 ∧ CutOf [q] clip2 (meet [q] clip2)) (qs : List Poly) (h : unwrapEach meet ps = .ok qs) :
    (∀ p : Rat × Rat, 0 < p.1 → p.1 < 360 → p.1 ≠ 180 → -90 < p.2 → p.2 < 90 →
      (polysCover qs p ↔ polysCover ps p ∨ polysCover ps (p.1 - 360, p.2))) ∧
    (∀ p, polysCover qs p → 0 ≤ p.1 ∧ p.1 < 360) := by
  have hcons : ∀ (a b : List Poly) (p : Rat × Rat), polysCover (a ++ b) p ↔ polysCover a p ∨ polysCover b p := by
    intro a b p
    constructor
    · rintro ⟨q, hq, hqp⟩
      rcases List.mem_append.1 hq with hq | hq
      · exact .inl ⟨q, hq, hqp⟩
      · exact .inr ⟨q, hq, hqp⟩
    · rintro (⟨q, hq, hqp⟩ | ⟨q, hq, hqp⟩)
      · exact ⟨q, List.mem_append_left _ hq, hqp⟩
      · exact ⟨q, List.mem_append_right _ hq, hqp⟩
  have hone : ∀ (q : Poly) (ps : List Poly) p, polysCover (q :: ps) p ↔ polyCovers q p ∨ polysCover ps p := by
    intro q ps p
    constructor
    · rintro ⟨r, hr, hrp⟩
      rcases List.mem_cons.1 hr with rfl | hr
      · exact .inl hrp
      · exact .inr ⟨r, hr, hrp⟩
    · rintro (hp | ⟨r, hr, hrp⟩)
      · exact ⟨q, List.mem_cons_self, hp⟩
      · exact ⟨r, List.mem_cons_of_mem _ hr, hrp⟩
  induction ps generalizing qs with
  | nil =>
    injection h with h
    subst h
    refine ⟨fun p _ _ _ _ _ => ?_, fun p hp => absurd hp (polysCover_nil p)⟩
    constructor
    · intro hp; exact absurd hp (polysCover_nil p)
    · rintro (hp | hp) <;> exact absurd hp (polysCover_nil _)
  | cons q ps ih =>
    unfold unwrapEach at h
    cases hu : unwrapPoly meet q with
    | error e => rw [hu] at h; cases h
    | ok rs =>
      rw [hu] at h
      simp only at h
      cases he : unwrapEach meet ps with
      | error e => rw [he] at h; cases h
      | ok ss =>
        rw [he] at h
        injection h with h
        subst h
        obtain ⟨e1, e2⟩ := unwrapPoly_spec meet q (hps q List.mem_cons_self) (h1 q List.mem_cons_self).1 (h1 q List.mem_cons_self).2 rs hu
        obtain ⟨e3, e4⟩ := ih (fun x hx => hps x (List.mem_cons_of_mem _ hx)) (fun x hx => h1 x (List.mem_cons_of_mem _ hx)) ss he
        refine ⟨fun p a1 a2 a3 a4 a5 => ?_, fun p hp => ?_⟩
        · rw [hcons, e1 p a1 a2 a3 a4 a5, e3 p a1 a2 a3 a4 a5, hone, hone]
          constructor
          · rintro ((h | h) | (h | h))
            · exact .inl (.inl h)
            · exact .inr (.inl h)
            · exact .inl (.inr h)
            · exact .inr (.inr h)
          · rintro ((h | h) | (h | h))
            · exact .inl (.inl h)
            · exact .inr (.inl h)
            · exact .inl (.inr h)
            · exact .inr (.inr h)
        · rcases (hcons _ _ p).1 hp with hp | hp
          · exact e2 p hp
          · exact e4 p hp

theorem assemble_covers (qs : List Poly) (g : Geom) (h : assemble qs = .ok g) (p : Rat × Rat) : covers g p ↔ polysCover qs p := by
  cases qs with
  | nil => cases h
  | cons a qs =>
    cases qs with
    | nil => injection h with h; subst h; exact Iff.rfl
    | cons b qs => injection h with h; subst h; exact Iff.rfl

theorem unwrapPolys_spec (meet : Meet) (g : Geom) (ps : List Poly) (hg : ∀ p, covers g p ↔ polysCover ps p) (hps : ∀ q ∈ ps, PlainPoly (-180) 180 q)
    (h1 : ∀ q ∈ ps, CutsWell meet [q] clip1 ∧ CutOf [q] clip2 (meet [q] clip2)) (g' : Geom) (h : unwrapPolys meet g ps = .ok g') :
    (∀ p : Rat × Rat, 0 < p.1 → p.1 < 360 → p.1 ≠ 180 → -90 < p.2 → p.2 < 90 → (covers g' p ↔ covers g p ∨ covers g (p.1 - 360, p.2))) ∧
    (∀ p, covers g' p → 0 ≤ p.1 ∧ p.1 < 360) := by
  unfold unwrapPolys at h
  split at h
  · cases hu : unwrapEach meet ps with
    | error e => rw [hu] at h; cases h
    | ok qs =>
      rw [hu] at h
      simp only at h
      obtain ⟨e1, e2⟩ := unwrapEach_spec meet ps hps h1 qs hu
      have ha := assemble_covers qs g' h
      refine ⟨fun p a1 a2 a3 a4 a5 => ?_, fun p hp => e2 p ((ha p).1 hp)⟩
      rw [ha, hg, hg, e1 p a1 a2 a3 a4 a5]
  · rename_i hn
    injection h with h
    subst h
    have hpos : ∀ p, polysCover ps p → 0 ≤ p.1 ∧ p.1 < 180 := by
      rintro p ⟨q, hq, hqp⟩
      refine covers_within q 0 180 (hps q hq).closed (fun c hc => ⟨?_, ((hps q hq).within c hc).2⟩) p hqp
      apply Classical.byContradiction
      intro hc0
      rw [not_le] at hc0
      apply hn
      rw [List.any_eq_true]
      refine ⟨q, hq, ?_⟩
      unfold shouldUnwrap
      rw [List.any_eq_true]
      exact ⟨c, hc, decide_eq_true hc0⟩
    refine ⟨fun p a1 a2 a3 a4 a5 => ?_, fun p hp => ?_⟩
    · rw [hg, hg]
      constructor
      · exact .inl
      · rintro (h5 | h5)
        · exact h5
        · have := (hpos _ h5).1
          simp only at this
          exact absurd this (by linarith)
    · have h5 := hpos p ((hg p).1 hp)
      exact ⟨h5.1, by linarith [h5.2]⟩

theorem unwrap_spec (meet : Meet) (g g' : Geom) (hg : PlainGeom (-180) 180 g)
    (h1 : ∀ q ∈ polysOf g, CutsWell meet [q] clip1 ∧ CutOf [q] clip2 (meet [q] clip2)) (h : unwrap meet g = .ok g') :
    (∀ p : Rat × Rat, 0 < p.1 → p.1 < 360 → p.1 ≠ 180 → -90 < p.2 → p.2 < 90 → (covers g' p ↔ covers g p ∨ covers g (p.1 - 360, p.2))) ∧
    (∀ p, covers g' p → 0 ≤ p.1 ∧ p.1 < 360) := by
  cases g with
  | poly q =>
    exact unwrapPolys_spec meet (.poly q) [q] (fun p => Iff.rfl)
      (fun r hr' => by rw [List.mem_singleton] at hr'; subst hr'; exact hg) h1 g' h
  | multi qs => exact unwrapPolys_spec meet (.multi qs) qs (fun p => Iff.rfl) hg.2 h1 g' h
  | point c => exact absurd hg id
  | points cs => exact absurd hg id
  | other => exact absurd hg id

/-- A rectangle covers the points between its sides. -/
theorem rect_covers (a b c d : Rat) (h : a ≤ c) (h2 : b ≤ d) (p : Rat × Rat) : polyCovers (rect a b c d) p ↔ a ≤ p.1 ∧ p.1 < c ∧ b ≤ p.2 ∧ p.2 < d := by
  have hx : ∀ (u : Rat) (v w : Rat), u + (p.2 - v) / (w - v) * (u - u) = u := by intro u v w; rw [sub_self, mul_zero, add_zero]
  unfold polyCovers rect
  simp only [List.not_mem_nil, false_imp_iff, implies_true, and_true, inRing, crosses, hx, bne_self_eq_false, Bool.false_and]
  by_cases h3 : b ≤ p.2 <;> by_cases h4 : d ≤ p.2 <;> by_cases h5 : p.1 < a <;> by_cases h6 : p.1 < c <;>
    simp only [h3, h4, h5, h6, decide_true, decide_false, and_true, and_false, ← not_le, not_true_eq_false, not_false_eq_true] <;>
    simp <;> linarith

end Ocgis.GeomWrap
