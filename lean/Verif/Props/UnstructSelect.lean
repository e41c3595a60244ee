import Verif.Proofs.UnstructSelect
/-!
# C90: selecting from points and polygons given by node coordinates
-/
namespace Ocgis.Props
open Ocgis Ocgis.UnstructSelect
open Ocgis.GeomSelect (Shapely Lawful PartsAgree Chosen Op)

/-! ## A library for examples: rectangles, some of them lines or points -/

/-- Two ranges meet. -/
def rangesMeet (a b c d : Rat) : Bool := decide (a ≤ d) && decide (c ≤ b)

/-- The interiors of two ranges meet; that of a single value is itself. -/
def rangesInner (a b c d : Rat) : Bool :=
  rangesMeet a b c d && (decide (a = b) || (decide (a < d) && decide (c < b)))

/-- Two rectangles meet. -/
def boxMeet (p q : Box) : Bool := rangesMeet p.minx p.maxx q.minx q.maxx && rangesMeet p.miny p.maxy q.miny q.maxy

/-- The interiors of two rectangles meet. -/
def boxInner (p q : Box) : Bool :=
  rangesInner p.minx p.maxx q.minx q.maxx && rangesInner p.miny p.maxy q.miny q.maxy

/-- The interiors of lists of rectangles meet. -/
def boxesInner (g x : List Box) : Bool := g.any fun p => x.any fun q => boxInner p q

/-- Lists of rectangles, with the rectangles as parts when there are several. -/
def rectangles : Shapely (List Box) where
  intersects := fun g x => g.any fun p => x.any fun q => boxMeet p q
  touches := fun g x => (g.any fun p => x.any fun q => boxMeet p q) && !boxesInner g x
  intersection := fun x g => x.filter fun q => g.any fun p => boxMeet p q
  distance := fun _ _ => 0
  centroid := id
  buffer := id
  parts := fun g => if g.length ≤ 1 then none else some (g.map fun p => [p])
  rtree := fun l _ => List.range l.length

/-- The box of a list of rectangles, whichever way round these are given. -/
def hullOf : List Box → Box
  | [] => ⟨0, 0, 0, 0⟩
  | [b] => ⟨b.minx, b.miny, max b.minx b.maxx, max b.miny b.maxy⟩
  | b :: rest =>
    let h := hullOf rest
    ⟨min b.minx h.minx, min b.miny h.miny, max b.maxx h.maxx, max b.maxy h.maxy⟩

/-- The boxes, without a third coordinate. -/
def flatFrame : Frame (List Box) := ⟨hullOf, fun _ => none⟩

/-- A point. -/
def dot (x y : Rat) : List Box := [⟨x, y, x, y⟩]

theorem boxInner_meet (p q : Box) (h : boxInner p q = true) : boxMeet p q = true := by
  simp only [boxInner, rangesInner, boxMeet, Bool.and_eq_true] at h ⊢
  exact ⟨h.1.1, h.2.1⟩

theorem rectangles_lawful : Lawful rectangles boxesInner where
  touches := fun _ _ => rfl
  inner_meets := by
    intro a b h
    simp only [boxesInner, List.any_eq_true] at h
    obtain ⟨p, hp, q, hq, h⟩ := h
    simp only [rectangles, List.any_eq_true]
    exact ⟨p, hp, q, hq, boxInner_meet p q h⟩
  parts := by
    intro g ps h x
    simp only [rectangles] at h ⊢
    split at h
    · cases h
    · cases h
      rw [List.any_map]
      congr 1
      funext p
      simp
  rtree := by
    intro l g k x h _
    simp only [rectangles, List.mem_range]
    exact (List.getElem?_eq_some_iff.1 h).1

theorem rectangles_agree (g : List Box) : PartsAgree rectangles boxesInner g := by
  intro ps h x
  simp only [rectangles] at h
  split at h
  · cases h
  · cases h
    simp only [boxesInner]
    rw [List.any_map]
    congr 1
    funext p
    simp

theorem hullOf_order : ∀ g : List Box, (hullOf g).minx ≤ (hullOf g).maxx ∧ (hullOf g).miny ≤ (hullOf g).maxy
  | [] => by constructor <;> exact Rat.le_refl
  | [b] => by simp only [hullOf]; constructor <;> grind
  | b :: c :: rest => by
    have := hullOf_order (c :: rest)
    simp only [hullOf]
    constructor <;> grind

theorem hullOf_has : ∀ (g : List Box) (b : Box), b ∈ g →
    (hullOf g).minx ≤ b.minx ∧ b.maxx ≤ (hullOf g).maxx ∧ (hullOf g).miny ≤ b.miny ∧ b.maxy ≤ (hullOf g).maxy
  | [], _, h => by cases h
  | [a], b, h => by
    have : b = a := by simpa using h
    subst this
    simp only [hullOf]
    grind
  | a :: c :: rest, b, h => by
    simp only [hullOf]
    rcases List.mem_cons.1 h with h | h
    · subst h; grind
    · have := hullOf_has (c :: rest) b h
      grind

theorem rectangles_boxed : Boxed rectangles flatFrame dot where
  order := hullOf_order
  inside := by
    intro p x y h
    simp only [rectangles, dot, List.any_cons, List.any_nil, Bool.or_false, List.any_eq_true] at h
    obtain ⟨b, hb, h⟩ := h
    simp only [boxMeet, rangesMeet, Bool.and_eq_true, decide_eq_true_eq] at h
    have := hullOf_has p b hb
    simp only [flatFrame]
    grind

/-- The square `[0, 2] x [0, 2]`. -/
def unitSquare : List Box := [⟨0, 0, 2, 2⟩]

/-- Five points: in the square, on its edge, outside, in it but masked, and in it. -/
def fivePoints : Coords (List Box) :=
  ⟨true, 5, fun k => dot ([1, 2, 3, 1, 1].getD k 0) ([1, 1, 1, 2, 1/2].getD k 0), [1, 2, 3, 1, 1], [1, 1, 1, 2, 1/2],
    none, some [false, false, false, true, false], false⟩

/-- The same without a mask. -/
def openPoints : Coords (List Box) := { fivePoints with mask := none }

theorem five_sized : Sized fivePoints := ⟨rfl, rfl, nofun, fun l h => by cases h; rfl⟩

theorem open_sized : Sized openPoints := ⟨rfl, rfl, nofun, nofun⟩

theorem five_nodes : AtNodes dot fivePoints := by
  refine ⟨rfl, fun k x y hx hy => ?_⟩
  show dot _ _ = _
  simp only [fivePoints] at hx hy
  rw [List.getD_eq_getElem?_getD, List.getD_eq_getElem?_getD, hx, hy]
  rfl

theorem square_thick : Thick flatFrame boxesInner dot unitSquare := by
  intro x y h
  simp only [boxesInner, unitSquare, dot, List.any_cons, List.any_nil, Bool.or_false, boxInner, rangesInner,
    rangesMeet, Bool.and_eq_true, Bool.or_eq_true, decide_eq_true_eq] at h
  simp only [flatFrame, hullOf, unitSquare]
  grind

/-- The defaults of the arguments. -/
def plain : Args := ⟨.intersects, none, true, false, true, false⟩

/-! ## Points -/

/-- C90 (part): selecting from points by a geometry without a third coordinate returns exactly the points that are not
masked and that the geometry chooses, in order, with their mask, and the slice tells which they are; the geometries of an
intersection are those of the points returned, and there are none when no point is.  Missing: geometries whose parts lie
along an axis when touching is not enough (`C90_line_counterexample`), masks given by the caller
(`C90_hint_counterexample`), third coordinates (`C90_depth_counterexample`), and not slicing
(`C90_unsliced_counterexample`). -/
theorem C90_points_partial {G : Type} (s : Shapely G) (inner : G → G → Bool) (f : Frame G) (pt : Rat → Rat → G)
    (c : Coords G) (g : G) (a : Args) (hl : Lawful s inner) (hb : Boxed s f pt) (hs : Sized c) (hc : AtNodes pt c)
    (hz : Flat s f g) (ht : a.keep = true ∨ (PartsAgree s inner g ∧ ∀ p ∈ partsOf s g, Thick f inner pt p))
    (ho : a.original = none) (hopt : a.optimized = false) (hsl : a.applySlice = true) (hn : a.noTouch = false) :
    ∃ o, subset s f c g a = .ok o ∧ Holds c o (Selected s c g a.keep) ∧ o.hint = none ∧
      (a.op = .intersects → o.geom = .notAsked) ∧
      (a.op = .clip → o.geom = .values (o.kept.map fun k => some (s.intersection (c.geom k) g)) ∨
        (o.geom = .noValue ∧ o.kept = [])) := by
  obtain ⟨first, ef, tf⟩ := start_points s f c g a hs hb.order hc.1 ho hn hz.1 fun p hp => Or.inl (hz.2 p hp)
  have tfill := fill_tells s c g a.keep hs.mask tf
  have tsel : Tells ((fillMask s c g a.keep first).map not) c.n (Selected s c g a.keep) := by
    refine tfill.congr fun k hk => ⟨fun h => h.1, fun h => ?_⟩
    have hnear := near_of_chosen hl hb hs hc hz.2 ht hk h.2
    have hk' : ¬ ((a.optimized = false ∧ c.masked k = true) ∨ ¬ Near s f c a.keep g k) := by
      rintro (⟨_, hm⟩ | hm)
      · rw [h.1] at hm; cases hm
      · exact hm hnear
    exact ⟨h, fun _ => hk', k, hk, hk'⟩
  rw [subset_fill s f c g a ef hopt]
  simp only [hsl, if_true, hc.1]
  refine ⟨_, rfl, holds_of_tells hs.mask tsel _ _, by simp [ho], ?_, ?_⟩
  · intro hop; simp [hop, Clipped.pick]
  · intro hop
    simp only [hop, if_true]
    cases ha : first.all id with
    | false => exact Or.inl (clip_pick s c g ha)
    | true =>
      refine Or.inr ⟨by simp [clipValues, ha, Clipped.pick], ?_⟩
      have : fillMask s c g a.keep first = first := by simp [fillMask, ha]
      rw [this] at tsel ⊢
      have he := exactly_pick tsel
      have hall := tf.all.1 ha
      apply List.eq_nil_iff_forall_not_mem.2
      intro k hk
      have h1 := (he.2 k).1 hk
      have h2 := tf.not.2 k h1.1
      exact h2.1 ((tsel.2 k h1.1).2 h1.2) (hall k h1.1)

example : ∃ o, subset rectangles flatFrame fivePoints unitSquare { plain with keep := false } = .ok o ∧
    Holds fivePoints o (Selected rectangles fivePoints unitSquare false) := by
  obtain ⟨o, h1, h2, -⟩ := C90_points_partial rectangles boxesInner flatFrame dot fivePoints unitSquare
    { plain with keep := false } rectangles_lawful rectangles_boxed five_sized five_nodes ⟨by decide, fun _ _ => rfl⟩
    (Or.inr ⟨rectangles_agree _, fun p hp => by
      have : p = unitSquare := by simpa [partsOf, rectangles, unitSquare] using hp
      subst this; exact square_thick⟩) rfl rfl rfl rfl
  exact ⟨o, h1, h2⟩

example : (subset rectangles flatFrame fivePoints unitSquare { plain with keep := false }).toOption.map (·.kept) = some [0, 4] ∧
    (subset rectangles flatFrame fivePoints unitSquare plain).toOption.map (·.kept) = some [0, 1, 4] ∧
    (subset rectangles flatFrame fivePoints unitSquare plain).toOption.map (·.slice) =
      some [true, true, false, false, true] ∧
    (subset rectangles flatFrame fivePoints unitSquare { plain with op := .clip }).toOption.map (·.geom) =
      some (.values [some (dot 1 1), some (dot 2 1), some (dot 1 (1/2))]) := by
  decide +kernel

/-- Two squares. -/
def twoSquares : List Box := [⟨0, 0, 1, 1⟩, ⟨3, 0, 4, 1⟩]

example : ∃ o, subset rectangles flatFrame fivePoints twoSquares plain = .ok o ∧
    Holds fivePoints o (Selected rectangles fivePoints twoSquares true) := by
  obtain ⟨o, h1, h2, -⟩ := C90_points_partial rectangles boxesInner flatFrame dot fivePoints twoSquares plain
    rectangles_lawful rectangles_boxed five_sized five_nodes ⟨by decide, fun _ _ => rfl⟩ (Or.inl rfl) rfl rfl rfl rfl
  exact ⟨o, h1, h2⟩

example : (subset rectangles flatFrame fivePoints twoSquares plain).toOption.map (·.kept) = some [0, 2, 4] ∧
    (subset rectangles flatFrame fivePoints twoSquares { plain with optimized := true }).toOption.map (·.kept) =
      some [0, 2, 4] := by decide +kernel

/-- A row of points. -/
def pointsAt (xs ys : List Rat) : Coords (List Box) :=
  ⟨true, xs.length, fun k => dot (xs.getD k 0) (ys.getD k 0), xs, ys, none, none, false⟩

/-- C90 (defect): a point in the interior of a line does not only touch it, but when touching is not enough the line has
to have the point strictly within its box, and a box of no height has none: nothing is selected. -/
theorem C90_line_counterexample :
    Chosen rectangles [⟨0, 1, 2, 1⟩] false ((pointsAt [1] [1]).geom 0) ∧
    (subset rectangles flatFrame (pointsAt [1] [1]) [⟨0, 1, 2, 1⟩] { plain with keep := false }).toOption.map (·.kept) =
      some [] := by
  unfold Chosen
  decide +kernel

/-- C90: the selection by bounding boxes returns exactly the points that lie in the box (and in the range of third
coordinates, if there is one) of some part of the geometry, masked or not, with their mask. -/
theorem C90_box {G : Type} (s : Shapely G) (f : Frame G) (pt : Rat → Rat → G) (c : Coords G) (g : G) (a : Args)
    (hb : Boxed s f pt) (hs : Sized c) (hc : c.points = true) (hz : Flat s f g ∨ Solid s f c g) (ho : a.original = none)
    (hopt : a.optimized = true) (hop : a.op = .intersects) (hn : a.noTouch = false) :
    ∃ o, subset s f c g a = .ok o ∧ Holds c o (Near s f c a.keep g) := by
  obtain ⟨first, ef, tf⟩ := start_points s f c g a hs hb.order hc ho hn (hz.elim (·.1) (·.1)) fun p hp =>
    hz.elim (fun h => Or.inl (h.2 p hp)) fun h => Or.inr ⟨h.2.1, h.2.2 p hp⟩
  have e : subset s f c g a = .ok ⟨pick (first.map not) (List.range c.n), c.mask.map (pick (first.map not)), .notAsked,
      first.map not, a.original⟩ := by simp [subset, hopt, hop, ef]
  refine ⟨_, e, holds_of_tells hs.mask (tf.not.congr fun k _ => ?_) _ _⟩
  simp [hopt]

example : ∃ o, subset rectangles flatFrame fivePoints unitSquare { plain with optimized := true } = .ok o ∧
    Holds fivePoints o (Near rectangles flatFrame fivePoints true unitSquare) :=
  C90_box rectangles flatFrame dot fivePoints unitSquare _ rectangles_boxed five_sized rfl (Or.inl ⟨by decide, fun _ _ => rfl⟩) rfl
    rfl rfl rfl

example : (subset rectangles flatFrame fivePoints unitSquare { plain with optimized := true }).toOption.map (·.kept) =
    some [0, 1, 3, 4] ∧
    (subset rectangles flatFrame fivePoints unitSquare { plain with optimized := true }).toOption.map (·.mask) =
    some (some [false, false, true, false]) := by decide +kernel

/-- C90: a selection by bounding boxes cannot be an intersection. -/
theorem C90_box_clip {G : Type} (s : Shapely G) (f : Frame G) (c : Coords G) (g : G) (a : Args)
    (hopt : a.optimized = true) (hop : a.op = .clip) : subset s f c g a = .error .valueError := by
  simp [subset, hopt, hop]

example : ({ plain with optimized := true, op := .clip } : Args).optimized = true := rfl

/-- C90 (defect): points may have a connectivity, which tells the node of each element.  The boxes are tried on the
nodes in their own order, so with two elements in the other order the wrong one is selected. -/
theorem C90_order_counterexample :
    (subset rectangles flatFrame { pointsAt [1, 9] [1, 9] with geom := fun k => if k = 0 then dot 9 9 else dot 1 1 } unitSquare
      { plain with optimized := true }).toOption.map (·.kept) = some [0] := by
  decide +kernel

/-! ## Third coordinates -/

/-- C90 (part): when some process has masked points (and this one has a mask), selecting from points returns exactly those
that are not masked, that the geometry chooses in the plane, and that lie in the box and range of third coordinates of
some part of it.  Missing: objects without masked points (`C90_depth_unmasked`, `C90_depth_counterexample`). -/
theorem C90_depth_partial {G : Type} (s : Shapely G) (f : Frame G) (pt : Rat → Rat → G) (c : Coords G) (g : G) (a : Args)
    (hb : Boxed s f pt) (hs : Sized c) (hc : c.points = true) (hz : Flat s f g ∨ Solid s f c g) (hm : SomeMasked c)
    (ho : a.original = none) (hopt : a.optimized = false) (hsl : a.applySlice = true) (hn : a.noTouch = false) :
    ∃ o, subset s f c g a = .ok o ∧ Holds c o fun k => Selected s c g a.keep k ∧ Near s f c a.keep g k := by
  replace hm := (uses_iff c).2 hm
  obtain ⟨first, ef, tf⟩ := start_points s f c g a hs hb.order hc ho hn (hz.elim (·.1) (·.1)) fun p hp =>
    hz.elim (fun h => Or.inl (h.2 p hp)) fun h => Or.inr ⟨h.2.1, h.2.2 p hp⟩
  rw [subset_fill s f c g a ef hopt]
  simp only [hsl, if_true]
  refine ⟨_, rfl, holds_of_tells hs.mask ((fill_tells s c g a.keep hs.mask tf).congr fun k hk => ?_) _ _⟩
  constructor
  · rintro ⟨h1, h2, -⟩
    exact ⟨h1, Classical.byContradiction fun hn => h2 hm (Or.inr hn)⟩
  · rintro ⟨h1, h2⟩
    have hk' : ¬ ((a.optimized = false ∧ c.masked k = true) ∨ ¬ Near s f c a.keep g k) := by
      rintro (⟨_, hm⟩ | hm)
      · rw [h1.1] at hm; cases hm
      · exact hm h2
    exact ⟨h1, fun _ => hk', k, hk, hk'⟩

/-- C90: when no process has masked points, the range of third coordinates and the boxes only decide whether anything is
selected: all points that the geometry chooses in the plane are returned, if some point lies in a box and range. -/
theorem C90_depth_unmasked {G : Type} (s : Shapely G) (f : Frame G) (pt : Rat → Rat → G) (c : Coords G) (g : G) (a : Args)
    (hb : Boxed s f pt) (hs : Sized c) (hc : c.points = true) (hz : Flat s f g ∨ Solid s f c g) (hm : ¬ SomeMasked c)
    (ho : a.original = none) (hopt : a.optimized = false) (hsl : a.applySlice = true) (hn : a.noTouch = false) :
    ∃ o, subset s f c g a = .ok o ∧
      Holds c o fun k => Chosen s g a.keep (c.geom k) ∧ ∃ j, j < c.n ∧ Near s f c a.keep g j := by
  replace hm := uses_false c hm
  obtain ⟨first, ef, tf⟩ := start_points s f c g a hs hb.order hc ho hn (hz.elim (·.1) (·.1)) fun p hp =>
    hz.elim (fun h => Or.inl (h.2 p hp)) fun h => Or.inr ⟨h.2.1, h.2.2 p hp⟩
  have hun : ∀ k, c.masked k = false := by
    intro k
    cases h : c.masked k with
    | false => rfl
    | true => rw [uses_of_masked h] at hm; cases hm
  rw [subset_fill s f c g a ef hopt]
  simp only [hsl, if_true]
  refine ⟨_, rfl, holds_of_tells hs.mask ((fill_tells s c g a.keep hs.mask tf).congr fun k hk => ?_) _ _⟩
  constructor
  · rintro ⟨h1, -, j, hj, h2⟩
    exact ⟨h1.2, j, hj, Classical.byContradiction fun hn => h2 (Or.inr hn)⟩
  · rintro ⟨h1, j, hj, h2⟩
    refine ⟨⟨hun k, h1⟩, fun h => (by rw [hm] at h; cases h), j, hj, ?_⟩
    rintro (⟨_, h⟩ | h)
    · rw [hun j] at h; cases h
    · exact h h2

/-- Geometries from height 0 to height 1. -/
def lowFrame : Frame (List Box) := ⟨flatFrame.bounds, fun _ => some (some (0, 1))⟩

theorem low_boxed : Boxed rectangles lowFrame dot := ⟨rectangles_boxed.order, rectangles_boxed.inside⟩

/-- Three points in the square, the second of them high, the third masked or not. -/
def towers (mask : Option (List Bool)) : Coords (List Box) :=
  ⟨true, 3, fun _ => dot 1 1, [1, 1, 1], [1, 1, 1], some [1/2, 100, 1/2], mask, false⟩

theorem towers_sized (mask : Option (List Bool)) (h : mask = none ∨ mask = some [false, false, true]) :
    Sized (towers mask) :=
  ⟨rfl, rfl, fun l e => by cases e; rfl, fun l e => by rcases h with h | h <;> subst h <;> cases e; rfl⟩

example : ∃ o, subset rectangles lowFrame (towers (some [false, false, true])) unitSquare plain = .ok o ∧
    Holds (towers (some [false, false, true])) o fun k => Selected rectangles (towers (some [false, false, true])) unitSquare true k ∧
      Near rectangles lowFrame (towers (some [false, false, true])) true unitSquare k :=
  C90_depth_partial rectangles lowFrame dot _ unitSquare plain low_boxed (towers_sized _ (Or.inr rfl)) rfl
    (Or.inr ⟨by decide, by decide, fun _ _ => ⟨0, 1, rfl, by decide +kernel⟩⟩) (by decide) rfl rfl rfl rfl

example : ∃ o, subset rectangles lowFrame (towers none) unitSquare plain = .ok o ∧
    Holds (towers none) o fun k => Chosen rectangles unitSquare true ((towers none).geom k) ∧
      ∃ j, j < 3 ∧ Near rectangles lowFrame (towers none) true unitSquare j :=
  C90_depth_unmasked rectangles lowFrame dot _ unitSquare plain low_boxed (towers_sized _ (Or.inl rfl)) rfl
    (Or.inr ⟨by decide, by decide, fun _ _ => ⟨0, 1, rfl, by decide +kernel⟩⟩) (by decide) rfl rfl rfl rfl

/-- C90 (defect): the second point lies far above the geometry.  It is not selected when the third is masked, and it is
when no point is: masking one point changes whether another is selected. -/
theorem C90_depth_counterexample :
    (subset rectangles lowFrame (towers (some [false, false, true])) unitSquare plain).toOption.map (·.kept) = some [0] ∧
    (subset rectangles lowFrame (towers none) unitSquare plain).toOption.map (·.kept) = some [0, 1, 2] := by
  decide +kernel

/-! ## Masks given by the caller -/

/-- C90 (part): when some process has masked points (and this one has a mask), a mask given by the caller leaves out the
points it has: exactly those not masked by either that the geometry chooses are returned.  The caller's array is
overwritten: it tells the points that were not selected.  Missing: objects without masked points
(`C90_hint_unmasked`, `C90_hint_counterexample`), and polygons (`C90_polygon_hint_counterexample`). -/
theorem C90_hint_partial {G : Type} (s : Shapely G) (f : Frame G) (c : Coords G) (g : G) (a : Args) (m : List Bool)
    (hs : MaskSized c) (hc : c.points = true) (hm : SomeMasked c) (ho : a.original = some m) (hlen : m.length = c.n)
    (hopt : a.optimized = false) (hsl : a.applySlice = true) :
    ∃ o, subset s f c g a = .ok o ∧ (Holds c o fun k => Selected s c g a.keep k ∧ m.getD k true = false) ∧
      ∃ after, o.hint = some after ∧ o.slice = after.map not := by
  replace hm := (uses_iff c).2 hm
  have ef : startMask s f c g a = .ok m := by simp [startMask, hc, ho]
  have tf : Tells m c.n fun k => m.getD k true = true := by rw [← hlen]; exact tells_self m true
  rw [subset_fill s f c g a ef hopt]
  simp only [hsl, if_true, hc, ho, Option.map_some]
  refine ⟨_, rfl, holds_of_tells hs ((fill_tells s c g a.keep hs tf).congr fun k hk => ?_) _ _, _, rfl, rfl⟩
  constructor
  · rintro ⟨h1, h2, -⟩
    exact ⟨h1, by simpa using h2 hm⟩
  · rintro ⟨h1, h2⟩
    have hk' : ¬ m.getD k true = true := by rw [h2]; simp
    exact ⟨h1, fun _ => hk', k, hk, hk'⟩

example : ∃ o, subset rectangles flatFrame fivePoints unitSquare { plain with original := some [true, false, false, false, false] } =
      .ok o ∧ Holds fivePoints o fun k => Selected rectangles fivePoints unitSquare true k ∧
        [true, false, false, false, false].getD k true = false := by
  obtain ⟨o, h1, h2, -⟩ := C90_hint_partial rectangles flatFrame fivePoints unitSquare
    { plain with original := some [true, false, false, false, false] } _ five_sized.mask rfl (by decide) rfl rfl rfl rfl
  exact ⟨o, h1, h2⟩

/-- C90: when no process has masked points, a mask given by the caller is not used, unless it has all points. -/
theorem C90_hint_unmasked {G : Type} (s : Shapely G) (f : Frame G) (c : Coords G) (g : G) (a : Args) (m : List Bool)
    (hs : MaskSized c) (hc : c.points = true) (hm : ¬ SomeMasked c) (ho : a.original = some m) (hlen : m.length = c.n)
    (hopt : a.optimized = false) (hsl : a.applySlice = true) :
    ∃ o, subset s f c g a = .ok o ∧
      Holds c o fun k => Chosen s g a.keep (c.geom k) ∧ ∃ j, j < c.n ∧ m.getD j true = false := by
  replace hm := uses_false c hm
  have ef : startMask s f c g a = .ok m := by simp [startMask, hc, ho]
  have tf : Tells m c.n fun k => m.getD k true = true := by rw [← hlen]; exact tells_self m true
  have hun : ∀ k, c.masked k = false := by
    intro k
    cases h : c.masked k with
    | false => rfl
    | true => rw [uses_of_masked h] at hm; cases hm
  rw [subset_fill s f c g a ef hopt]
  simp only [hsl, if_true]
  refine ⟨_, rfl, holds_of_tells hs ((fill_tells s c g a.keep hs tf).congr fun k hk => ?_) _ _⟩
  constructor
  · rintro ⟨h1, -, j, hj, h2⟩
    exact ⟨h1.2, j, hj, by simpa using h2⟩
  · rintro ⟨h1, j, hj, h2⟩
    exact ⟨⟨hun k, h1⟩, fun h => (by rw [hm] at h; cases h), j, hj, by rw [h2]; simp⟩

example : ∃ o, subset rectangles flatFrame openPoints unitSquare { plain with original := some [true, true, true, true, false] } =
      .ok o ∧ Holds openPoints o fun k => Chosen rectangles unitSquare true (openPoints.geom k) ∧
        ∃ j, j < 5 ∧ [true, true, true, true, false].getD j true = false :=
  C90_hint_unmasked rectangles flatFrame openPoints unitSquare _ _ open_sized.mask rfl (by decide) rfl rfl rfl rfl

/-- C90 (defect): a mask given by the caller is to exclude points.  The first point is excluded and is selected all the
same, and the caller's array says afterwards that it is not masked. -/
theorem C90_hint_counterexample :
    (subset rectangles flatFrame openPoints unitSquare { plain with original := some [true, true, true, true, false] }).toOption.map
      (fun o => (o.kept, o.hint)) = some ([0, 1, 3, 4], some [false, false, true, false, false]) := by
  decide +kernel

/-! ## Polygons -/

/-- C90 (part): selecting from polygons returns exactly those that are not masked and that the geometry chooses, in order,
with their mask, whatever the mask given by the caller, which is not changed; the geometries of an intersection are those
of the polygons returned.  Missing: the mask given by the caller (`C90_polygon_hint_counterexample`), bounding boxes
(`C90_polygon_box_counterexample`), and not slicing (`C90_unsliced_counterexample`). -/
theorem C90_polygons_partial {G : Type} (s : Shapely G) (f : Frame G) (c : Coords G) (g : G) (a : Args) (hs : MaskSized c)
    (hc : c.points = false) (hpos : 0 < c.n) (hopt : a.optimized = false) (hsl : a.applySlice = true) :
    ∃ o, subset s f c g a = .ok o ∧ Holds c o (Selected s c g a.keep) ∧ o.hint = a.original ∧
      (a.op = .intersects → o.geom = .notAsked) ∧
      (a.op = .clip → o.geom = .values (o.kept.map fun k => some (s.intersection (c.geom k) g))) := by
  have ef : startMask s f c g a = .ok (List.replicate c.n false) := by simp [startMask, hc]
  have tf : Tells (List.replicate c.n false) c.n fun _ => False := by
    refine ⟨by simp, fun k hk => ?_⟩
    simp [hk]
  have ha : (List.replicate c.n false).all id = false := by
    obtain ⟨n, e⟩ : ∃ n, c.n = n + 1 := ⟨c.n - 1, by omega⟩
    rw [e, List.replicate_succ]
    simp
  rw [subset_fill s f c g a ef hopt]
  simp only [hsl, if_true, hc, Bool.false_eq_true, if_false]
  refine ⟨_, rfl, holds_of_tells hs ((fill_tells s c g a.keep hs tf).congr fun k hk => ?_) _ _, rfl, ?_, ?_⟩
  · exact ⟨fun h => h.1, fun h => ⟨h, fun _ => id, k, hk, id⟩⟩
  · intro hop; simp [hop, Clipped.pick]
  · intro hop
    simp only [hop, if_true]
    exact clip_pick s c g ha

/-- Three cells, the last of them masked or not. -/
def cells (mask : Option (List Bool)) : Coords (List Box) :=
  ⟨false, 3, fun k => [⟨3 * k, 0, 3 * k + 2, 1⟩], [], [], none, mask, false⟩

example : ∃ o, subset rectangles flatFrame (cells (some [false, false, true])) [⟨2, 0, 9, 9⟩] { plain with op := .clip, keep := false } = .ok o ∧
    Holds (cells (some [false, false, true])) o (Selected rectangles (cells (some [false, false, true])) [⟨2, 0, 9, 9⟩] false) := by
  obtain ⟨o, h1, h2, -⟩ := C90_polygons_partial rectangles flatFrame (cells (some [false, false, true])) [⟨2, 0, 9, 9⟩]
    { plain with op := .clip, keep := false } (fun l h => by cases h; rfl) rfl (by decide) rfl rfl
  exact ⟨o, h1, h2⟩

example : (subset rectangles flatFrame (cells (some [false, false, true])) [⟨2, 0, 9, 9⟩] { plain with op := .clip, keep := false }).toOption.map
      (fun o => (o.kept, o.geom)) = some ([1], .values [some [⟨3, 0, 5, 1⟩]]) ∧
    (subset rectangles flatFrame (cells (some [false, false, true])) [⟨2, 0, 9, 9⟩] plain).toOption.map (·.kept) = some [0, 1] := by decide +kernel

/-- C90 (defect): a mask given by the caller is not used for polygons. -/
theorem C90_polygon_hint_counterexample :
    (subset rectangles flatFrame (cells none) [⟨0, 0, 9, 9⟩] { plain with original := some [true, true, true] }).toOption.map
      (·.kept) = some [0, 1, 2] := by
  decide +kernel

/-- C90 (defect): the selection of polygons by bounding boxes returns all of them, wherever they are. -/
theorem C90_polygon_box_counterexample :
    (subset rectangles flatFrame (cells none) [⟨100, 100, 101, 101⟩] { plain with optimized := true }).toOption.map
      (·.kept) = some [0, 1, 2] := by
  decide +kernel

/-! ## Not slicing -/

/-- C90: without slicing the object returned has all elements with the mask it had, whatever is selected; the slice is the
one that would have been applied, and of an intersection the geometries that were not selected are masked. -/
theorem C90_unsliced {G : Type} (s : Shapely G) (f : Frame G) (c : Coords G) (g : G) (a : Args) (o : Out G)
    (hopt : a.optimized = false) (hsl : a.applySlice = true) (h : subset s f c g a = .ok o) :
    ∃ o', subset s f c g { a with applySlice := false } = .ok o' ∧ o'.kept = List.range c.n ∧ o'.mask = c.mask ∧
      o'.slice = o.slice ∧ o'.hint = o.hint ∧ o.geom = o'.geom.pick o.slice := by
  have hst : startMask s f c g { a with applySlice := false } = startMask s f c g a := rfl
  cases hf : startMask s f c g a with
  | error e =>
    simp [subset, hopt, hf] at h
  | ok first =>
    rw [subset_fill s f c g a hf hopt] at h
    rw [subset_fill s f c g { a with applySlice := false } (hst.trans hf) hopt]
    simp only [hsl, if_true] at h
    injection h with h
    subst h
    exact ⟨_, rfl, rfl, rfl, rfl, rfl, rfl⟩

example : (subset rectangles flatFrame fivePoints unitSquare plain).toOption.isSome = true := by decide +kernel

/-- C90 (defect): without slicing the mask is to tell what is selected; nothing is, and the object returned has all
elements, none of them masked. -/
theorem C90_unsliced_counterexample :
    (subset rectangles flatFrame (cells none) [⟨100, 100, 101, 101⟩] { plain with applySlice := false }).toOption.map
      (fun o => (o.kept, o.mask)) = some ([0, 1, 2], none) := by
  decide +kernel

/-! ## Points that touch -/

/-- C90: with the check for touching points, the program stops exactly if some node, masked or not, lies at the lower left
or the upper right corner of the box of some part; otherwise the result is that without the check. -/
theorem C90_touch {G : Type} (s : Shapely G) (f : Frame G) (pt : Rat → Rat → G) (c : Coords G) (g : G) (a : Args)
    (hb : Boxed s f pt) (hs : Sized c) (hc : c.points = true) (hz : Flat s f g) (ho : a.original = none)
    (hop : a.optimized = false ∨ a.op = .intersects) (hn : a.noTouch = true) :
    ((∃ p ∈ partsOf s g, ∃ (k : Nat) (x y : Rat), c.x[k]? = some x ∧ c.y[k]? = some y ∧
        ((x = (f.bounds p).minx ∧ y = (f.bounds p).miny) ∨ (x = (f.bounds p).maxx ∧ y = (f.bounds p).maxy))) →
      subset s f c g a = .error .noTouching) ∧
    ((¬ ∃ p ∈ partsOf s g, ∃ (k : Nat) (x y : Rat), c.x[k]? = some x ∧ c.y[k]? = some y ∧
        ((x = (f.bounds p).minx ∧ y = (f.bounds p).miny) ∨ (x = (f.bounds p).maxx ∧ y = (f.bounds p).maxy))) →
      subset s f c g a = subset s f c g { a with noTouch := false }) := by
  have hg : (a.optimized && decide (a.op = .clip)) = false := by
    rcases hop with h | h <;> simp [h]
  have hbx := boxes_touch f c a.keep hs hb.order (partsOf s g) hz.1 hz.2
  have hany : (partsOf s g).any (fun p => (c.x.zip c.y).any fun q => atCorner (f.bounds p) q.1 q.2) = true ↔
      ∃ p ∈ partsOf s g, ∃ (k : Nat) (x y : Rat), c.x[k]? = some x ∧ c.y[k]? = some y ∧
        ((x = (f.bounds p).minx ∧ y = (f.bounds p).miny) ∨ (x = (f.bounds p).maxx ∧ y = (f.bounds p).maxy)) := by
    rw [List.any_eq_true]
    constructor
    · rintro ⟨p, hp, h⟩; exact ⟨p, hp, (hasCorner_iff ..).1 h⟩
    · rintro ⟨p, hp, h⟩; exact ⟨p, hp, (hasCorner_iff ..).2 h⟩
  constructor
  · intro h
    rw [if_pos (hany.2 h)] at hbx
    have : startMask s f c g a = .error .noTouching := by
      simp only [startMask, hc, if_true, ho, hn]
      rw [show (s.parts g).getD [g] = partsOf s g from rfl, hbx]
    simp [subset, hg, this]
  · intro h
    rw [if_neg (fun h' => h (hany.1 h'))] at hbx
    have : startMask s f c g a = startMask s f c g { a with noTouch := false } := by
      simp only [startMask, hc, if_true, ho, hn]
      rw [show (s.parts g).getD [g] = partsOf s g from rfl, hbx]
    simp only [subset, this]

example : subset rectangles flatFrame (pointsAt [2] [2]) unitSquare { plain with noTouch := true } = .error .noTouching :=
  (C90_touch rectangles flatFrame dot (pointsAt [2] [2]) unitSquare { plain with noTouch := true } rectangles_boxed
    ⟨rfl, rfl, nofun, nofun⟩ rfl ⟨by decide, fun _ _ => rfl⟩ rfl (Or.inl rfl) rfl).1
    ⟨unitSquare, by simp [partsOf, rectangles, unitSquare], 0, 2, 2, rfl, rfl, Or.inr ⟨by decide +kernel, by decide +kernel⟩⟩

/-- C90: the same for geometries with third coordinates: the program stops exactly if some node lies at the lower left
corner of the box of some part and at its lowest third coordinate, or at the upper right corner and the highest. -/
theorem C90_touch_depth {G : Type} (s : Shapely G) (f : Frame G) (pt : Rat → Rat → G) (c : Coords G) (g : G) (a : Args)
    (zs : List Rat) (hcz : c.z = some zs)
    (hb : Boxed s f pt) (hs : Sized c) (hc : c.points = true) (hz : Solid s f c g) (ho : a.original = none)
    (hop : a.optimized = false ∨ a.op = .intersects) (hn : a.noTouch = true) :
    ((∃ p ∈ partsOf s g, ∃ lo hi, f.zbounds p = some (some (lo, hi)) ∧ ∃ (k : Nat) (x y z : Rat),
        c.x[k]? = some x ∧ c.y[k]? = some y ∧ zs[k]? = some z ∧
        ((x = (f.bounds p).minx ∧ y = (f.bounds p).miny ∧ z = lo) ∨ (x = (f.bounds p).maxx ∧ y = (f.bounds p).maxy ∧ z = hi))) →
      subset s f c g a = .error .noTouching) ∧
    ((¬ ∃ p ∈ partsOf s g, ∃ lo hi, f.zbounds p = some (some (lo, hi)) ∧ ∃ (k : Nat) (x y z : Rat),
        c.x[k]? = some x ∧ c.y[k]? = some y ∧ zs[k]? = some z ∧
        ((x = (f.bounds p).minx ∧ y = (f.bounds p).miny ∧ z = lo) ∨ (x = (f.bounds p).maxx ∧ y = (f.bounds p).maxy ∧ z = hi))) →
      subset s f c g a = subset s f c g { a with noTouch := false }) := by
  have hg : (a.optimized && decide (a.op = .clip)) = false := by
    rcases hop with h | h <;> simp [h]
  have hbx := boxes_touch_of f c a.keep (touch3 f c zs) (partsOf s g) hz.1
    (fun p hp => partSelect_touch3 f c a.keep p zs hcz (hz.2.2 p hp) (hb.order p)) fun p hp =>
      let ⟨r, er, _⟩ := partSelect_ok f c a.keep p hs (hb.order p) (Or.inr ⟨hz.2.1, hz.2.2 p hp⟩)
      ⟨r, er⟩
  have hany : (partsOf s g).any (touch3 f c zs) = true ↔ ∃ p ∈ partsOf s g, ∃ lo hi, f.zbounds p = some (some (lo, hi)) ∧
      ∃ (k : Nat) (x y z : Rat), c.x[k]? = some x ∧ c.y[k]? = some y ∧ zs[k]? = some z ∧
        ((x = (f.bounds p).minx ∧ y = (f.bounds p).miny ∧ z = lo) ∨ (x = (f.bounds p).maxx ∧ y = (f.bounds p).maxy ∧ z = hi)) := by
    rw [List.any_eq_true]
    constructor
    · rintro ⟨p, hp, h⟩; exact ⟨p, hp, (touch3_iff ..).1 h⟩
    · rintro ⟨p, hp, h⟩; exact ⟨p, hp, (touch3_iff ..).2 h⟩
  constructor
  · intro h
    rw [if_pos (hany.2 h)] at hbx
    have : startMask s f c g a = .error .noTouching := by
      simp only [startMask, hc, if_true, ho, hn]
      rw [show (s.parts g).getD [g] = partsOf s g from rfl, hbx]
    simp [subset, hg, this]
  · intro h
    rw [if_neg (fun h' => h (hany.1 h'))] at hbx
    have : startMask s f c g a = startMask s f c g { a with noTouch := false } := by
      simp only [startMask, hc, if_true, ho, hn]
      rw [show (s.parts g).getD [g] = partsOf s g from rfl, hbx]
    simp only [subset, this]

/-- Three points: at the two corners but at other heights, and in the square. -/
example : (subset rectangles lowFrame ⟨true, 3, fun k => [dot 0 0, dot 2 2, dot 1 1].getD k [], [0, 2, 1], [0, 2, 1], some [1, 0, 1], none, false⟩
      unitSquare { plain with noTouch := true }).toOption.map (·.kept) = some [0, 1, 2]
    ∧ (subset rectangles lowFrame ⟨true, 3, fun k => [dot 0 0, dot 2 2, dot 1 1].getD k [], [0, 2, 1], [0, 2, 1], some [1, 1, 1], none, false⟩
      unitSquare { plain with noTouch := true }).toOption.map (·.kept) = none := by decide +kernel

/-- C90 (defect): the check is to stop the program when the geometry touches a point.  Points on the edge of the square
and at its upper left corner touch it, and the selection goes on with them. -/
theorem C90_touch_counterexample :
    rectangles.touches unitSquare (dot 2 1) = true ∧ rectangles.touches unitSquare (dot 0 2) = true ∧
    (subset rectangles flatFrame (pointsAt [2, 0] [1, 2]) unitSquare { plain with noTouch := true }).toOption.map (·.kept) =
      some [0, 1] := by
  decide +kernel

end Ocgis.Props
