import Verif.Proofs.GeomPrep
/-! C100: polygons converted to node coordinates cover what they covered, and keep their data. -/
namespace Ocgis.Props
open Ocgis Ocgis.GeomPrep Ocgis.Spec Ocgis.Select Ocgis.Proofs.GeomPrep

variable {P : Type} {E : Engine P} {covers : P → Rat → Rat → Prop}

/-! ### Rectangles with rectangular holes, for examples -/

/-- A rectangle from which rectangles are removed. -/
structure Frame where
  outer : Box
  removed : List Box
  deriving DecidableEq

/-- The closed ring around a box. -/
def boxRing (b : Box) : Ring := [[b.minx, b.miny], [b.maxx, b.miny], [b.maxx, b.maxy], [b.minx, b.maxy], [b.minx, b.miny]]

/-- The points of the rectangle that are not strictly inside of a removed one. -/
def frameCovers (f : Frame) (x y : Rat) : Prop := Inside f.outer x y ∧ ∀ b ∈ f.removed, ¬ StrictlyInside b x y

/-- The removed rectangle is a hole. -/
def isHole (o b : Box) : Bool :=
  decide (o.minx < b.minx) && decide (b.minx < b.maxx) && decide (b.maxx < o.maxx) &&
  decide (o.miny < b.miny) && decide (b.miny < b.maxy) && decide (b.maxy < o.maxy)

/-- The common part of two boxes. -/
def commonBox (a b : Box) : Box :=
  ⟨if a.minx ≤ b.minx then b.minx else a.minx, if a.miny ≤ b.miny then b.miny else a.miny,
   if a.maxx ≤ b.maxx then a.maxx else b.maxx, if a.maxy ≤ b.maxy then a.maxy else b.maxy⟩

/-- An engine for rectangles with rectangular holes. -/
def frames : Engine Frame where
  exterior f := boxRing f.outer
  interiors f := (f.removed.filter (isHole f.outer)).map boxRing
  bounds f := f.outer
  centroid r := (((r.getD 0 []).getD 0 0 + (r.getD 2 []).getD 0 0) / 2, ((r.getD 0 []).getD 1 0 + (r.getD 2 []).getD 1 0) / 2)
  cut f b :=
    let c := commonBox f.outer b
    if c.maxx < c.minx ∨ c.maxy < c.miny then .nothing
    else if c.maxx = c.minx ∨ c.maxy = c.miny then .collection [none]
    else .polygon ⟨c, f.removed⟩
  valid _ := true
  repair f := [f]
  polygon r := ⟨⟨(r.getD 0 []).getD 0 0, (r.getD 0 []).getD 1 0, (r.getD 2 []).getD 0 0, (r.getD 2 []).getD 1 0⟩, []⟩
  ccw _ := true
  orient f := f

theorem inside_common (a b : Box) (x y : Rat) : Inside (commonBox a b) x y ↔ Inside a x y ∧ Inside b x y := by
  unfold Inside commonBox
  simp only
  grind

theorem frames_part {f : Frame} {b : Box} {q : Frame} (h : PieceOf (frames.cut f b) q) : q = ⟨commonBox f.outer b, f.removed⟩ := by
  simp only [frames] at h
  rcases h with h | ⟨ps, h, hm⟩
  · split at h
    · cases h
    · split at h
      · cases h
      · cases h; rfl
  · split at h
    · cases h
    · split at h
      · cases h; simp at hm
      · cases h

/-- What is trusted of Shapely holds of the rectangles: the hypotheses of the theorems can be met. -/
theorem frames_laws : GeometryLaws frames frameCovers where
  bounds f x y h := h.1
  apart f b h x y hc := by
    have hin := (inside_common f.outer b x y).2 ⟨hc.1.1, hc.2⟩
    simp only [frames] at h
    split at h
    · rename_i hlt
      obtain ⟨h1, h2, h3, h4⟩ := hin
      grind
    · split at h <;> cases h
  within f b q h x y hq := by
    rw [frames_part h] at hq
    have := (inside_common f.outer b x y).1 hq.1
    exact ⟨⟨this.1, hq.2⟩, this.2⟩
  whole f b q h x y hc hin := by
    rw [frames_part (.inl h)]
    exact ⟨(inside_common _ _ _ _).2 ⟨hc.1, hin⟩, hc.2⟩
  wholes f b ps h hn := by
    simp only [frames] at h
    split at h
    · cases h
    · split at h
      · cases h; simp at hn
      · cases h
  holes f b q h r hr := by
    rw [frames_part h] at hr
    simp only [frames, List.mem_map, List.mem_filter] at hr ⊢
    obtain ⟨k, ⟨hk, hh⟩, rfl⟩ := hr
    simp only [isHole, Bool.and_eq_true, decide_eq_true_eq, commonBox] at hh
    refine ⟨boxRing k, ⟨k, ⟨hk, ?_⟩, rfl⟩, ?_⟩
    · simp only [isHole, Bool.and_eq_true, decide_eq_true_eq]
      grind
    · intro c hc
      simp only [boxRing, List.mem_cons, List.not_mem_nil, or_false] at hc
      unfold NodeInside Inside
      rcases hc with rfl | rfl | rfl | rfl | rfl <;> simp <;> grind
  middle f r hr := by
    simp only [frames, List.mem_map, List.mem_filter] at hr
    obtain ⟨k, ⟨_, hh⟩, rfl⟩ := hr
    simp only [isHole, Bool.and_eq_true, decide_eq_true_eq] at hh
    refine ⟨[k.minx, k.miny], by simp [boxRing], [k.maxx, k.miny], by simp [boxRing], ?_⟩
    simp only [frames, boxRing, List.getD_cons_zero, List.getD_cons_succ]
    grind

/-- A rectangle with a hole. -/
def ringFrame : Frame := ⟨⟨0, 0, 12, 12⟩, [⟨1, 1, 3, 3⟩]⟩

/-- A rectangle with two holes. -/
def twoHoles : Frame := ⟨⟨0, 0, 12, 12⟩, [⟨1, 1, 3, 3⟩, ⟨8, 8, 10, 10⟩]⟩

/-! ### Holes -/

/-- C100 for the pieces of polygons with holes: whatever the number of polygons and holes, together they cover exactly what the polygons
covered. -/
theorem C100_split_area (hE : GeometryLaws E covers) (g ps : List P) (h : split E g = .ok ps) : SameArea covers g ps := split_area hE h

/-- C100 for polygons with one hole at most: no piece has a hole, and the pieces of a polygon have only points of the lines through the centroid
of the hole in common.  Missing: polygons with several holes (`C100_two_holes_counterexample`). -/
theorem C100_split_partial (hE : GeometryLaws E covers) :
    (∀ g ps, (∀ p ∈ g, (E.interiors p).length ≤ 1) → split E g = .ok ps → ∀ q ∈ ps, E.interiors q = []) ∧
    ∀ p r ps, E.interiors p = [r] → split E [p] = .ok ps → ∀ (i j : Nat) a b, i < j → ps[i]? = some a → ps[j]? = some b →
      ∀ x y, covers a x y → covers b x y → x = (E.centroid r).1 ∨ y = (E.centroid r).2 := by
  refine ⟨fun g ps h1 h => split_holes hE h1 h, ?_⟩
  intro p r ps hr h i j a b hij ha hb x y
  have hp := split_overlap hE hr h
  obtain ⟨hi, rfl⟩ := List.getElem?_eq_some_iff.1 ha
  obtain ⟨hj, rfl⟩ := List.getElem?_eq_some_iff.1 hb
  exact List.pairwise_iff_getElem.1 hp i j hi hj hij x y

example : (frames.interiors ringFrame).length = 1 ∧ (split frames [ringFrame]).toOption.map List.length = some 4 ∧
    (split frames [ringFrame, ⟨⟨20, 0, 30, 12⟩, []⟩]).toOption.map List.length = some 5 := by decide +kernel

/-- C100 counterexample: with two holes every hole contributes four pieces of the whole polygon: pieces keep the other hole, which is lost when
only exteriors are written, and overlap. -/
theorem C100_two_holes_counterexample :
    ∃ ps, split frames [twoHoles] = .ok ps ∧ ps.length = 8 ∧
      (∃ q ∈ ps, frames.interiors q ≠ [] ∧ Inside q.outer 9 9 ∧ ¬ frameCovers twoHoles 9 9) ∧
      ∃ a b, ps[2]? = some a ∧ ps[6]? = some b ∧ frameCovers a 11 11 ∧ frameCovers b 11 11 := by
  refine ⟨((split frames [twoHoles]).toOption).getD [], by decide +kernel, by decide +kernel, ?_, ?_⟩
  · refine ⟨⟨⟨2, 2, 12, 12⟩, twoHoles.removed⟩, by decide +kernel, by decide +kernel, ?_, ?_⟩
    · unfold Inside; decide +kernel
    · intro h
      exact h.2 ⟨8, 8, 10, 10⟩ (by decide +kernel) (by unfold StrictlyInside; decide +kernel)
  · refine ⟨⟨⟨2, 2, 12, 12⟩, twoHoles.removed⟩, ⟨⟨9, 9, 12, 12⟩, twoHoles.removed⟩, by decide +kernel, by decide +kernel, ?_, ?_⟩
    · refine ⟨by unfold Inside; decide +kernel, ?_⟩
      intro b hb
      simp only [twoHoles, List.mem_cons, List.not_mem_nil, or_false] at hb
      rcases hb with rfl | rfl <;> (unfold StrictlyInside; decide +kernel)
    · refine ⟨by unfold Inside; decide +kernel, ?_⟩
      intro b hb
      simp only [twoHoles, List.mem_cons, List.not_mem_nil, or_false] at hb
      rcases hb with rfl | rfl <;> (unfold StrictlyInside; decide +kernel)

/-! ### Many nodes -/

/-- C100 for splitting by a number of nodes: the pieces cover exactly what the polygons covered, polygons with no more nodes than the threshold
stay as they are, and pieces of polygons without holes have none.  Missing: that the pieces have no more nodes than the threshold
(`C100_threshold_counterexample`). -/
theorem C100_threshold_partial (hE : GeometryLaws E covers) (t : Nat) (ht : 0 < t) (g ps : List P) (h : byThreshold E t g = .ok ps) :
    SameArea covers g ps ∧ (∀ p ∈ g, (E.exterior p).length ≤ t → p ∈ ps) ∧
    ((∀ p ∈ g, E.interiors p = []) → ∀ q ∈ ps, E.interiors q = []) := by
  refine ⟨byThreshold_area hE ht h, ?_, fun hg => byThreshold_holes hE h hg⟩
  intro p hp hl
  refine ((byThreshold_ok h).2 p).2 ⟨p, hp, ?_⟩
  simp [thresholdPart, Nat.not_lt.2 hl]

example : (byThreshold frames 2 [(⟨⟨0, 0, 12, 12⟩, []⟩ : Frame)]).toOption.map List.length = some 4 := by decide +kernel

/-- C100 counterexample: the pieces are not split again, so that they may all have more nodes than the threshold. -/
theorem C100_threshold_counterexample :
    ∃ ps, byThreshold frames 4 [⟨⟨0, 0, 12, 12⟩, []⟩] = .ok ps ∧ ps.length = 4 ∧ ∀ p ∈ ps, (frames.exterior p).length = 5 := by
  refine ⟨((byThreshold frames 4 [⟨⟨0, 0, 12, 12⟩, []⟩]).toOption).getD [], ?_, ?_, ?_⟩ <;> decide +kernel

/-! ### One geometry -/

/-- C100 for one geometry, without removal of self-intersections: the polygons written cover exactly what the geometry covered, are the polygons
of the geometry unless a piece was split, and have no holes if the polygons had one at most. -/
theorem C100_prepared_partial (hE : GeometryLaws E covers) (o : Opts) (hs : o.removeSelf = false)
    (ht : ∀ t, o.nodeThreshold = some t → 0 < t) (g : Geom P) (ps : List P) (m : Bool) (h : prepare E o g = .ok (some ps, m)) :
    SameArea covers g.parts ps ∧ (m = false → ps = g.parts) ∧
    ((∀ p ∈ g.parts, (E.interiors p).length ≤ 1) → ∀ q ∈ ps, E.interiors q = []) :=
  prepare_area hE ht hs h

example : ((prepare frames { splitInteriors := true, nodeThreshold := some 4 } ⟨false, [ringFrame]⟩).toOption.bind (·.1)).map List.length
    = some 16 := by decide +kernel

/-- C100 for geometries that are not split: without holes and with no more nodes than the threshold they are written as they are. -/
theorem C100_unsplit (o : Opts) (hs : o.removeSelf = false) (g : Geom P) (hh : ∀ p ∈ g.parts, E.interiors p = [])
    (ht : ∀ t, o.nodeThreshold = some t → (g.parts.map fun p => (E.exterior p).length).sum ≤ t) :
    prepare E o g = .ok (some g.parts, false) := by
  have h0 : countInteriors E g.parts = 0 := by
    unfold countInteriors
    refine List.sum_eq_zero_iff_forall_eq_nat.2 fun n hn => ?_
    obtain ⟨p, hp, rfl⟩ := List.mem_map.1 hn
    simp [hh p hp]
  simp only [prepare, cleaned, hs, Bool.false_eq_true, if_false, openedHoles, h0, if_true, fewNodes]
  cases hto : o.nodeThreshold with
  | none => rfl
  | some t =>
    have : ¬ nodeCount E g.parts > t := Nat.not_lt.2 (ht t hto)
    simp only [if_neg this]

example : ∀ p ∈ [(⟨⟨0, 0, 12, 12⟩, []⟩ : Frame), ⟨⟨13, 0, 14, 12⟩, []⟩], frames.interiors p = [] ∧ (frames.exterior p).length = 5 := by decide +kernel

/-- C100 for holes without permission to split: the conversion is refused, whether or not polygons may be left out. -/
theorem C100_refused {δ : Type} (o : Opts) (hs : o.removeSelf = false) (hi : o.splitInteriors = false) (gs : List (Geom P)) (data : List δ)
    (g : Geom P) (hg : g ∈ gs) (p : P) (hp : p ∈ g.parts) (hh : E.interiors p ≠ []) :
    prepare E o g = .error .valueError ∧ ∃ e, convert E o gs data = .error e := by
  have h0 : countInteriors E g.parts ≠ 0 := by
    intro h0
    have := List.sum_eq_zero_iff_forall_eq_nat.1 h0 _ (List.mem_map.2 ⟨p, hp, rfl⟩)
    exact hh (List.length_eq_zero_iff.1 this)
  have hpr : prepare E o g = .error .valueError := by
    simp [prepare, cleaned, hs, openedHoles, h0, hi]
  refine ⟨hpr, ?_⟩
  cases hc : convert E o gs data with
  | error e => exact ⟨e, rfl⟩
  | ok c =>
    exfalso
    obtain ⟨es, he⟩ : ∃ es, gs.mapM (element E o) = .ok es := let ⟨es, he, _⟩ := convert_ok hc; ⟨es, he⟩
    have hel : element E o g = .error .valueError := by simp [element, hpr]
    have : ∃ e, element E o g = .ok e := by
      have hf := mapM_forall₂ he
      clear he hc
      induction hf with
      | nil => cases hg
      | cons hx _ ih =>
        rcases List.mem_cons.1 hg with rfl | hg
        · exact ⟨_, hx⟩
        · exact ih hg
    rw [hel] at this
    obtain ⟨_, h⟩ := this
    cases h

example : frames.interiors ringFrame ≠ [] := by decide +kernel

/-- C100 for leaving out: what is kept is what would be made without permission; what is left out would fail without it, or has
self-intersections that cannot be removed; failures with permission are failures without. -/
theorem C100_left_out (o : Opts) (g : Geom P) :
    match prepare E { o with allow := true } g with
    | .ok (some ps, m) => prepare E { o with allow := false } g = .ok (some ps, m)
    | .ok (none, _) => (∃ e, prepare E { o with allow := false } g = .error e) ∨ (o.removeSelf = true ∧ removeSelfMulti E g = .ok none)
    | .error e => prepare E { o with allow := false } g = .error e := by
  have hopen : ∀ qs, openedHoles E { o with allow := true } qs = openedHoles E { o with allow := false } qs ∨
      ((∃ m, openedHoles E { o with allow := true } qs = .ok (none, m)) ∧ ∃ e, openedHoles E { o with allow := false } qs = .error e) := by
    intro qs
    simp only [openedHoles]
    split
    · exact .inl rfl
    · split
      · split
        · exact .inl rfl
        · exact .inr ⟨⟨_, rfl⟩, _, rfl⟩
      · exact .inl rfl
  have hfew : ∀ qs m, fewNodes E { o with allow := true } qs m = fewNodes E { o with allow := false } qs m ∨
      ((∃ m', fewNodes E { o with allow := true } qs m = .ok (none, m')) ∧ ∃ e, fewNodes E { o with allow := false } qs m = .error e) := by
    intro qs m
    simp only [fewNodes]
    split
    · exact .inl rfl
    · split
      · split
        · exact .inl rfl
        · exact .inr ⟨⟨_, rfl⟩, _, rfl⟩
      · exact .inl rfl
  have hno : ∀ qs m, openedHoles E { o with allow := false } qs ≠ .ok (none, m) := by
    intro qs m
    simp only [openedHoles]
    split
    · nofun
    · split
      · split
        · nofun
        · nofun
      · nofun
  have hnf : ∀ qs m m', fewNodes E { o with allow := false } qs m ≠ .ok (none, m') := by
    intro qs m m'
    simp only [fewNodes]
    split
    · nofun
    · split
      · split
        · nofun
        · nofun
      · nofun
  have hrest : ∀ qs,
      (cleaned E { o with allow := true } g = .ok (some qs)) → (cleaned E { o with allow := false } g = .ok (some qs)) →
      match prepare E { o with allow := true } g with
      | .ok (some ps, m) => prepare E { o with allow := false } g = .ok (some ps, m)
      | .ok (none, _) => (∃ e, prepare E { o with allow := false } g = .error e) ∨ (o.removeSelf = true ∧ removeSelfMulti E g = .ok none)
      | .error e => prepare E { o with allow := false } g = .error e := by
    intro qs h1 h2
    simp only [prepare, h1, h2]
    rcases hopen qs with ho | ⟨⟨m, ho⟩, e, ho'⟩
    · rw [ho]
      cases hq : openedHoles E { o with allow := false } qs with
      | error e => simp
      | ok r =>
        obtain ⟨r, m⟩ := r
        cases r with
        | none => exact absurd hq (hno qs m)
        | some rs =>
          simp only
          rcases hfew rs m with hf | ⟨⟨m', hf⟩, e, hf'⟩
          · rw [hf]
            cases hr : fewNodes E { o with allow := false } rs m with
            | error e => simp
            | ok t =>
              obtain ⟨t, m'⟩ := t
              cases t with
              | none => exact absurd hr (hnf _ _ _)
              | some _ => simp
          · rw [hf, hf']; simp
    · rw [ho, ho']; simp
  cases hrs : o.removeSelf with
  | false => rw [hrs] at hrest; exact hrest g.parts (by simp [cleaned]) (by simp [cleaned])
  | true =>
    cases hm : removeSelfMulti E g with
    | error e => simp [prepare, cleaned, hm]
    | ok r =>
      cases r with
      | none => simp [prepare, cleaned, hm]
      | some qs =>
        rw [hrs, hm] at hrest
        exact hrest qs (by simp [cleaned, hm]) (by simp [cleaned, hm])

/-! ### The conversion -/

/-- C100 for the conversion, without removal of self-intersections: reading the connectivity gives, in their order, the shapes of the geometries
that are not left out, and the data variable has the values of just these; a shape consists of the exteriors of polygons that cover what the
geometry covered.  Missing: a start index for geometries of several polygons (see C63) and self-intersections
(`C100_break_counterexample`). -/
theorem C100_convert_partial {δ : Type} (hE : GeometryLaws E covers) (o : Opts) (hs : o.removeSelf = false)
    (ht : ∀ t, o.nodeThreshold = some t → 0 < t) (hb : o.mbv < 0) (hsi : 0 ≤ o.startIndex) (gs : List (Geom P)) (data : List δ)
    (hd : data.length = gs.length)
    (hg : ∀ g ∈ gs, (g.multi = false → g.parts.length = 1) ∧ ∃ p ∈ g.parts, ∃ x y, covers p x y)
    (c : Converted δ) (h : convert E o gs data = .ok c) (h0 : c.breakValue ≠ none → o.startIndex = 0) :
    ∃ (kept : List Nat) (shapes : List (List (List Coord))), KeptAre kept gs (fun g => ∃ ps m, prepare E o g = .ok (some ps, m)) ∧
      Geomc.readAll o.startIndex c.breakValue c.nodes [] (.rows c.rows) = .ok (shapes.map some, .rows c.rows) ∧
      shapes.length = kept.length ∧ c.data.length = kept.length ∧
      ∀ (k i : Nat), kept[k]? = some i → c.data[k]? = data[i]? ∧
        ∃ g shape ps m, gs[i]? = some g ∧ shapes[k]? = some shape ∧ prepare E o g = .ok (some ps, m) ∧ SameArea covers g.parts ps ∧
          List.Forall₂ (WrittenAs E o.repeatLast) ps shape := by
  obtain ⟨es, he, hnr, hbv, hdata⟩ := convert_ok h
  have hf := mapM_forall₂ he
  have hlen := hf.length_eq
  obtain ⟨kept, k1, k2, k3, k4, k5, k6⟩ := kept_places es data (by omega)
  have hat : ∀ (i : Nat) e, es[i]? = some e → ∃ g, gs[i]? = some g ∧ element E o g = .ok e := by
    intro i e hi
    obtain ⟨hlt, rfl⟩ := List.getElem?_eq_some_iff.1 hi
    exact ⟨gs[i]'(by omega), List.getElem?_eq_getElem (by omega), (List.forall₂_iff_get.1 hf).2 i (by omega) hlt⟩
  have hshape : ∀ (i : Nat) rs m, es[i]? = some (some rs, m) → ∃ g ps, gs[i]? = some g ∧ prepare E o g = .ok (some ps, m) ∧
      SameArea covers g.parts ps ∧ List.Forall₂ (WrittenAs E o.repeatLast) ps rs ∧ rs ≠ [] ∧ (g.multi = false → m = false → rs.length = 1) := by
    intro i rs m hi
    obtain ⟨g, hgi, hel⟩ := hat i _ hi
    rcases element_ok hel with ⟨hn, _⟩ | ⟨rs', ps, hr, hp, hw, hl⟩
    · cases hn
    · cases hr
      obtain ⟨ha, hsame, _⟩ := prepare_area hE ht hs hp
      obtain ⟨hone, p, hpm, x, y, hc⟩ := hg g (List.mem_of_getElem? hgi)
      refine ⟨g, ps, hgi, hp, ha, hw, ?_, ?_⟩
      · intro hrs
        subst hrs
        obtain ⟨q, hq, _⟩ := (ha x y).1 ⟨p, hpm, hc⟩
        have : ps = [] := List.length_eq_zero_iff.1 (by simpa using hl.symm)
        rw [this] at hq
        cases hq
      · intro hm hm'
        rw [hl, hsame hm', hone hm]
  refine ⟨kept, es.filterMap (·.1), ⟨k1, fun i hi => by have := k2 i hi; omega, ?_⟩, ?_, k4, by rw [hdata]; exact k5, ?_⟩
  · intro i g hgi
    have hilt : i < es.length := by have := (List.getElem?_eq_some_iff.1 hgi).1; omega
    have hei : es[i]? = some (es[i]'hilt) := List.getElem?_eq_getElem hilt
    obtain ⟨g', hg', hel⟩ := hat i _ hei
    rw [hgi] at hg'
    cases hg'
    rw [k3 i _ hei]
    rcases hee : es[i]'hilt with ⟨e, m⟩
    rw [hee] at hel
    rcases element_ok hel with ⟨rfl, hp⟩ | ⟨rs, ps, rfl, hp, _⟩
    · simp [hp]
    · simp [hp]
  · have hall : ∀ rs ∈ es.filterMap (·.1), ∃ (i : Nat) (m : Bool), es[i]? = some (some rs, m) := by
      intro rs hrs
      obtain ⟨⟨e, m⟩, hem, he'⟩ := List.mem_filterMap.1 hrs
      simp only at he'
      subst he'
      obtain ⟨i, hi⟩ := List.mem_iff_getElem?.1 hem
      exact ⟨i, m, hi⟩
    have hw := Ocgis.Props.C63_write_then_read_partial o.pack o.startIndex o.mbv (gs.any (·.multi) || es.any (·.2)) (es.filterMap (·.1)) hsi hb
      (by intro hm; apply h0; rw [hbv, hm]; simp)
      (by
        intro rs hrs
        obtain ⟨i, m, hi⟩ := hall rs hrs
        obtain ⟨g, ps, hgi, _, _, _, hne, h1⟩ := hshape i rs m hi
        split
        · exact hne
        · rename_i hmul
          simp only [Bool.or_eq_true, List.any_eq_true, not_or, not_exists, not_and, Bool.not_eq_true] at hmul
          exact h1 (hmul.1 g (List.mem_of_getElem? hgi)) (hmul.2 _ (List.mem_of_getElem? hi)))
    rw [← hnr, ← hbv] at hw
    exact hw.1
  · intro k i hk
    obtain ⟨a1, e, a2, a3⟩ := k6 k i hk
    refine ⟨by rw [hdata]; exact a1, ?_⟩
    have hsm := (k3 i e a2).1 (List.mem_of_getElem? hk)
    obtain ⟨e1, m⟩ := e
    obtain ⟨rs, rfl⟩ := Option.isSome_iff_exists.1 hsm
    obtain ⟨g, ps, hgi, hp, ha, hw, _⟩ := hshape i rs m a2
    exact ⟨g, rs, ps, m, hgi, a3, hp, ha, hw⟩

/-- Three rectangles with data are converted; the second is a line, cannot be split, and is left out. -/
example : ((convert frames { splitInteriors := true, nodeThreshold := some 4, allow := true }
    [⟨false, [ringFrame]⟩, ⟨false, [⟨⟨0, 0, 0, 4⟩, []⟩]⟩, ⟨false, [⟨⟨5, 0, 9, 4⟩, []⟩]⟩] ["a", "b", "c"]).toOption.map fun c =>
      (c.rows.map List.length, c.breakValue, c.data)) = some ([79, 19], some (-8), ["a", "c"]) := by
  decide +kernel

/-! ### Self-intersections -/

/-- C100 for the removal of self-intersections: if no node of a polygon without holes occurs more than twice, the new polygon has the same nodes,
in their order, each once; it is the result if it is valid.  Missing: nodes that occur three times (`C100_triple_counterexample`). -/
theorem C100_corners_partial (hpoly : ∀ r, E.exterior (E.polygon r) = r) (p : P) (hh : E.interiors p = [])
    (h2 : ∀ c ∈ (E.exterior p).dropLast, c.length = 2) (hc : ∀ c, ((E.exterior p).dropLast).count c ≤ 2) :
    ∃ q, (E.exterior q).dropLast.Nodup ∧ (E.exterior q).dropLast.Sublist (E.exterior p).dropLast ∧
      (∀ c, c ∈ (E.exterior q).dropLast ↔ c ∈ (E.exterior p).dropLast) ∧ (E.valid q = true → removeSelf E p = .ok (some [q])) := by
  have hcount : ∀ c, (thin (E.exterior p).dropLast).count c = if c ∈ (E.exterior p).dropLast then 1 else 0 := by
    intro c
    rw [thin_count]
    have := hc c
    have hpos := List.count_pos_iff (a := c) (l := (E.exterior p).dropLast)
    split
    · rename_i h1; rw [if_pos (hpos.1 (by omega))]; omega
    · split
      · rename_i h; have := hpos.2 h; omega
      · rename_i h; exact List.count_eq_zero.2 h
  have hnd : (thin (E.exterior p).dropLast).Nodup := List.nodup_iff_count.2 fun c => by rw [hcount]; split <;> omega
  have hmem : ∀ c, c ∈ thin (E.exterior p).dropLast ↔ c ∈ (E.exterior p).dropLast := by
    intro c
    rw [← List.count_pos_iff, hcount]
    split
    · simp [*]
    · simp [*]
  by_cases hd : (duplicates (E.exterior p).dropLast (E.exterior p).dropLast 0 []).isEmpty = true
  · refine ⟨p, ?_, List.Sublist.refl _, fun _ => Iff.rfl, ?_⟩
    · rw [duplicates_empty hd] at hnd; exact hnd
    · intro hv
      simp [removeSelf, removeSelfWith, hh, thinned, hd, hv]
  · have hall : ((thin (E.exterior p).dropLast).all fun c => c.length == 2) = true := by
      rw [List.all_eq_true]
      intro c hcm
      simpa using h2 c ((hmem c).1 hcm)
    have hne : (thin (E.exterior p).dropLast) ≠ [] := by
      intro he
      have : (E.exterior p).dropLast = [] := List.eq_nil_iff_forall_not_mem.2 fun c hcm => by have := (hmem c).2 hcm; rw [he] at this; cases this
      rw [this] at hd
      exact hd rfl
    have hdl : (thin (E.exterior p).dropLast ++ (thin (E.exterior p).dropLast).take 1).dropLast = thin (E.exterior p).dropLast := by
      cases ht : thin (E.exterior p).dropLast with
      | nil => exact absurd ht hne
      | cons a as => exact List.dropLast_concat
    refine ⟨E.polygon (thin (E.exterior p).dropLast ++ (thin (E.exterior p).dropLast).take 1), ?_⟩
    rw [hpoly, hdl]
    refine ⟨hnd, thin_sublist _, hmem, ?_⟩
    intro hv
    simp [removeSelf, removeSelfWith, hh, thinned, hd, hall, hv]

/-- Polygons that are their exteriors, valid if no node occurs twice; invalid ones are repaired by dividing them in halves. -/
def outlines : Engine Ring where
  exterior r := r
  interiors _ := []
  bounds _ := ⟨0, 0, 0, 0⟩
  centroid _ := (0, 0)
  cut _ _ := .nothing
  valid r := decide r.dropLast.Nodup
  repair r := [r.take 4, r.drop 3]
  polygon r := r
  ccw _ := true
  orient r := r

/-- A polygon that touches itself in one node. -/
def touching : Ring := [[0, 0], [1, 0], [1, 1], [2, 0], [1, 0], [3, 3], [0, 0]]

example : (∀ r, outlines.exterior (outlines.polygon r) = r) ∧ outlines.interiors touching = [] ∧
    removeSelf outlines touching = .ok (some [[[0, 0], [1, 1], [2, 0], [1, 0], [3, 3], [0, 0]]]) := ⟨fun _ => rfl, rfl, by decide +kernel⟩

/-- C100 for self-intersections of multi-polygons: every part is cleaned by itself and stays in its place; when a part cannot be cleaned the
whole is not.  A polygon is cleaned as its only part. -/
theorem C100_cleaned_parts (ps qs : List P) :
    (removeSelfMulti E ⟨true, ps⟩ = .ok (some qs) ↔
      qs.length = ps.length ∧ ∀ (k : Nat) (p q : P), ps[k]? = some p → qs[k]? = some q → removeSelf E p = .ok (some [q])) ∧
    (removeSelfMulti E ⟨true, ps⟩ = .ok none → ∃ p ∈ ps, removeSelf E p = .ok none) ∧
    (∀ p, removeSelfMulti E ⟨false, [p]⟩ = removeSelf E p) := by
  refine ⟨?_, ?_, fun _ => rfl⟩
  · show removeSelfParts E ps = _ ↔ _
    induction ps generalizing qs with
    | nil =>
      constructor
      · intro h
        simp only [removeSelfParts, Except.ok.injEq, Option.some.injEq] at h
        subst h; exact ⟨rfl, fun k p q h => by simp at h⟩
      · rintro ⟨h, _⟩
        rw [List.length_nil, List.length_eq_zero_iff] at h
        subst h; rfl
    | cons p ps ih =>
      constructor
      · intro h
        rw [removeSelfParts] at h
        split at h
        · cases h
        · cases h
        · next q hq =>
          split at h
          · cases h
          · cases h
          · next rs hrs =>
            simp only [Except.ok.injEq, Option.some.injEq] at h
            subst h
            obtain ⟨h1, h2⟩ := (ih rs).1 hrs
            refine ⟨by simp [h1], ?_⟩
            intro k a b ha hb
            cases k with
            | zero => simp at ha hb; subst ha; subst hb; exact hq
            | succ k => exact h2 k a b (by simpa using ha) (by simpa using hb)
        · cases h
      · rintro ⟨h1, h2⟩
        cases qs with
        | nil => simp at h1
        | cons q qs =>
          have hq := h2 0 p q rfl rfl
          have hrs := (ih qs).2 ⟨by simpa using h1, fun k a b ha hb => h2 (k + 1) a b (by simpa using ha) (by simpa using hb)⟩
          rw [removeSelfParts, hq]
          simp only [hrs]
  · intro h
    replace h : removeSelfParts E ps = .ok none := h
    induction ps with
    | nil => cases h
    | cons p ps ih =>
      rw [removeSelfParts] at h
      split at h
      · cases h
      · next hp => exact ⟨p, by simp, hp⟩
      · split at h
        · cases h
        · next hrs =>
          obtain ⟨r, hr, hn⟩ := ih hrs
          exact ⟨r, by simp [hr], hn⟩
        · cases h
      · cases h

example : removeSelfMulti outlines ⟨true, [touching, touching]⟩
    = .ok (some [[[0, 0], [1, 1], [2, 0], [1, 0], [3, 3], [0, 0]], [[0, 0], [1, 1], [2, 0], [1, 0], [3, 3], [0, 0]]]) := by decide +kernel

/-- C100 counterexample: of a node that occurs three times two remain. -/
theorem C100_triple_counterexample :
    thin [[1, 0], [0, 0], [1, 0], [1, 1], [1, 0], [2, 2]] = [[0, 0], [1, 0], [1, 1], [1, 0], [2, 2]] := by decide +kernel

/-- C100 counterexample: three-dimensional polygons with a repeated node stop the conversion, whether or not polygons may be left out. -/
theorem C100_height_counterexample (allow : Bool) :
    (element outlines { removeSelf := true, allow := allow }
      ⟨false, [[[0, 0, 5], [1, 0, 5], [1, 1, 5], [1, 0, 5], [3, 3, 5], [0, 0, 5]]]⟩).toOption = none := by
  cases allow <;> decide +kernel

/-- C100 counterexample: self-intersections of a polygon with holes are not removed; without permission to leave polygons out it is used as it
is, with permission it is left out although its holes could be split. -/
theorem C100_holes_counterexample :
    (∀ (E : Engine P) (p : P), E.interiors p ≠ [] → cleaned E { removeSelf := true } ⟨false, [p]⟩ = .ok (some [p])) ∧
    prepare frames { splitInteriors := true, allow := true, removeSelf := true } ⟨false, [ringFrame]⟩ = .ok (none, false) ∧
    (prepare frames { splitInteriors := true, allow := true } ⟨false, [ringFrame]⟩).toOption.any (fun r => r.1.isSome) = true := by
  refine ⟨?_, by decide +kernel, by decide +kernel⟩
  intro E p h
  have : 0 < (E.interiors p).length := List.length_pos_iff.2 h
  simp [cleaned, removeSelfMulti, removeSelf, removeSelfWith, this]

/-- C100 counterexample: a polygon repaired to several is written with a break value that no attribute announces, and cannot be read. -/
theorem C100_break_counterexample :
    ∃ c, convert outlines { removeSelf := true } [⟨false, [[[1, 0], [0, 0], [1, 0], [1, 1], [1, 0], [2, 2], [1, 3], [1, 0]]]⟩] ["a"] = .ok c ∧
      c.breakValue = none ∧ (∃ r ∈ c.rows, (-8) ∈ r) ∧
      (Geomc.readAll 0 c.breakValue c.nodes [] (.rows c.rows)).toOption = none := by
  refine ⟨_, rfl, ?_, ?_, ?_⟩ <;> decide +kernel

end Ocgis.Props
