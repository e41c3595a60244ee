import Verif.Spec.GeomPrep
import Verif.Props.SpatialSelect
import Verif.Props.Geomc
import Verif.Proofs.MapM
/-! Lemmas about preparing polygons for conversion. -/
namespace Ocgis.Proofs.GeomPrep
open Ocgis Ocgis.GeomPrep Ocgis.Spec Ocgis.Select Ocgis.Proofs

variable {P : Type} {E : Engine P} {covers : P → Rat → Rat → Prop}

theorem sameArea_refl (ps : List P) : SameArea covers ps ps := fun _ _ => Iff.rfl

theorem sameArea_trans {a b c : List P} (h : SameArea covers a b) (h' : SameArea covers b c) : SameArea covers a c :=
  fun x y => (h x y).trans (h' x y)

/-! ## Holes -/

theorem multiPolygon_ok {cs : List (Cut P)} {ps : List P} (h : multiPolygon cs = .ok ps) :
    (∀ q, q ∈ ps ↔ .polygon q ∈ cs) ∧ ∀ c ∈ cs, c = .nothing ∨ ∃ q, c = .polygon q := by
  induction cs generalizing ps with
  | nil => simp only [multiPolygon] at h; cases h; simp
  | cons c cs ih =>
    cases c with
    | nothing =>
      simp only [multiPolygon] at h
      obtain ⟨h1, h2⟩ := ih h
      refine ⟨fun q => by rw [h1]; simp, ?_⟩
      intro c hc
      rcases List.mem_cons.1 hc with rfl | hc
      · exact .inl rfl
      · exact h2 c hc
    | polygon p =>
      simp only [multiPolygon] at h
      split at h
      · rename_i qs hq
        cases h
        obtain ⟨h1, h2⟩ := ih hq
        refine ⟨fun q => by simp [h1, eq_comm], ?_⟩
        intro c hc
        rcases List.mem_cons.1 hc with rfl | hc
        · exact .inr ⟨p, rfl⟩
        · exact h2 c hc
      · cases h
    | collection _ => simp [multiPolygon] at h

/-- A point of the bounds is in one of the quadrants, whatever the centre. -/
theorem quadrants_cover (b : Box) (c : Rat × Rat) (x y : Rat) (h : Inside b x y) : ∃ q ∈ quadrants b c, Inside q x y := by
  obtain ⟨h1, h2, h3, h4⟩ := h
  unfold quadrants Inside
  simp only [List.mem_cons, List.not_mem_nil, or_false, exists_eq_or_imp, exists_eq_left]
  rcases Rat.le_total (a := x) (b := c.1) with hx | hx <;> rcases Rat.le_total (a := y) (b := c.2) with hy | hy
  · exact .inl ⟨h1, hx, h3, hy⟩
  · exact .inr (.inr (.inr ⟨h1, hx, hy, h4⟩))
  · exact .inr (.inl ⟨hx, h2, h3, hy⟩)
  · exact .inr (.inr (.inl ⟨hx, h2, hy, h4⟩))

theorem inside_expand {b : Box} {x y : Rat} (h : Inside b x y) : Inside (b.expand bufferSplit) x y := by
  obtain ⟨h1, h2, h3, h4⟩ := h
  unfold Inside Box.expand bufferSplit
  simp only
  grind

theorem mem_splitPieces {p : P} {c : Cut P} :
    c ∈ splitPieces E p ↔ ∃ r ∈ E.interiors p, ∃ b ∈ quadrants ((E.bounds p).expand bufferSplit) (E.centroid r), E.cut p b = c := by
  simp [splitPieces]

theorem splitPart_area (hE : GeometryLaws E covers) {p : P} {ps : List P} (h : splitPart E p = .ok ps) : SameArea covers [p] ps := by
  unfold splitPart at h
  split at h
  · cases h; exact sameArea_refl _
  · rename_i hne
    obtain ⟨h1, h2⟩ := multiPolygon_ok h
    intro x y
    simp only [List.mem_singleton, exists_eq_left]
    constructor
    · intro hc
      obtain ⟨r, rs, hr⟩ : ∃ r rs, E.interiors p = r :: rs := by
        cases he : E.interiors p with
        | nil => simp [he] at hne
        | cons r rs => exact ⟨r, rs, rfl⟩
      obtain ⟨b, hb, hin⟩ := quadrants_cover ((E.bounds p).expand bufferSplit) (E.centroid r) x y (inside_expand (hE.bounds p x y hc))
      have hm : E.cut p b ∈ splitPieces E p := mem_splitPieces.2 ⟨r, by simp [hr], b, hb, rfl⟩
      rcases h2 _ hm with hq | ⟨q, hq⟩
      · exact absurd ⟨hc, hin⟩ (hE.apart p b hq x y)
      · exact ⟨q, (h1 q).2 (hq ▸ hm), hE.whole p b q hq x y hc hin⟩
    · rintro ⟨q, hq, hc⟩
      obtain ⟨r, _, b, _, hb⟩ := mem_splitPieces.1 ((h1 q).1 hq)
      exact (hE.within p b q (.inl hb) x y hc).1

theorem flatten_area {ps : List P} {pss : List (List P)} (h : List.Forall₂ (fun p qs => SameArea covers [p] qs) ps pss) :
    SameArea covers ps pss.flatten := by
  induction h with
  | nil => exact sameArea_refl _
  | cons h _ ih =>
    intro x y
    have h1 := h x y
    have h2 := ih x y
    simp only [List.mem_singleton, exists_eq_left] at h1
    simp only [List.mem_cons, exists_eq_or_imp, List.flatten_cons, List.mem_append, h1, h2]
    constructor
    · rintro (⟨q, hq, hc⟩ | ⟨q, hq, hc⟩)
      · exact ⟨q, .inl hq, hc⟩
      · exact ⟨q, .inr hq, hc⟩
    · rintro ⟨q, hq | hq, hc⟩
      · exact .inl ⟨q, hq, hc⟩
      · exact .inr ⟨q, hq, hc⟩

theorem mapM_forall₂ {α β : Type} {f : α → Res β} {xs : List α} {ys : List β} (h : xs.mapM f = .ok ys) :
    List.Forall₂ (fun x y => f x = .ok y) xs ys := by
  induction xs generalizing ys with
  | nil => simp only [List.mapM_nil] at h; cases h; exact .nil
  | cons x xs ih =>
    rw [List.mapM_cons] at h
    cases hx : f x with
    | error e => rw [hx] at h; cases h
    | ok y =>
      rw [hx] at h
      cases hr : xs.mapM f with
      | error e => simp only [hr] at h; cases h
      | ok zs => simp only [hr] at h; cases h; exact .cons hx (ih hr)

theorem mem_of_forall₂ {α β : Type} {R : α → β → Prop} {xs : List α} {ys : List β} (h : List.Forall₂ R xs ys) {y : β} (hy : y ∈ ys) :
    ∃ x ∈ xs, R x y := by
  induction h with
  | nil => simp at hy
  | cons h _ ih =>
    rcases List.mem_cons.1 hy with rfl | hy
    · exact ⟨_, by simp, h⟩
    · obtain ⟨x, hx, hr⟩ := ih hy; exact ⟨x, by simp [hx], hr⟩

theorem split_ok {g ps : List P} (h : split E g = .ok ps) : ∃ pss, g.mapM (splitPart E) = .ok pss ∧ ps = pss.flatten := by
  unfold split at h
  split at h
  · rename_i pss hp; cases h; exact ⟨pss, hp, rfl⟩
  · cases h

theorem split_area (hE : GeometryLaws E covers) {g ps : List P} (h : split E g = .ok ps) : SameArea covers g ps := by
  obtain ⟨pss, hp, rfl⟩ := split_ok h
  exact flatten_area ((mapM_forall₂ hp).imp fun _ _ => splitPart_area hE)

/-- A box of the quadrants does not contain the hole: it ends or begins at its centroid. -/
theorem quadrant_side {b q : Box} {c : Rat × Rat} (h : q ∈ quadrants b c) : q.maxx = c.1 ∨ q.minx = c.1 := by
  simp only [quadrants, List.mem_cons, List.not_mem_nil, or_false] at h
  rcases h with rfl | rfl | rfl | rfl <;> simp

theorem splitPart_holes (hE : GeometryLaws E covers) {p : P} (h1 : (E.interiors p).length ≤ 1) {ps : List P} (h : splitPart E p = .ok ps) :
    ∀ q ∈ ps, E.interiors q = [] := by
  unfold splitPart at h
  split at h
  · rename_i he
    cases h
    simpa using he
  · intro q hq
    obtain ⟨hm, _⟩ := multiPolygon_ok h
    obtain ⟨r, hr, b, hb, hc⟩ := mem_splitPieces.1 ((hm q).1 hq)
    cases hi : E.interiors q with
    | nil => rfl
    | cons r0 rs0 =>
      exfalso
      obtain ⟨r', hr', hin⟩ := hE.holes p b q (.inl hc) r0 (by simp [hi])
      have : r' = r := by
        cases hp : E.interiors p with
        | nil => simp [hp] at hr
        | cons a as =>
          rw [hp] at h1 hr hr'
          have : as = [] := by simpa using h1
          subst this
          rw [List.mem_singleton] at hr hr'
          rw [hr, hr']
      subst this
      obtain ⟨c, hcm, c', hcm', hl, hg⟩ := hE.middle p r' hr
      obtain ⟨a1, a2, _, _⟩ := hin c hcm
      obtain ⟨b1, b2, _, _⟩ := hin c' hcm'
      rcases quadrant_side hb with he | he
      · rw [he] at b2; grind
      · rw [he] at a1; grind

theorem split_holes (hE : GeometryLaws E covers) {g ps : List P} (h1 : ∀ p ∈ g, (E.interiors p).length ≤ 1) (h : split E g = .ok ps) :
    ∀ q ∈ ps, E.interiors q = [] := by
  obtain ⟨pss, hp, rfl⟩ := split_ok h
  intro q hq
  obtain ⟨qs, hqs, hq⟩ := List.mem_flatten.1 hq
  obtain ⟨p, hpg, hpp⟩ := Ocgis.Proofs.GeomPrep.mem_of_forall₂ (mapM_forall₂ hp) hqs
  exact splitPart_holes hE (h1 p hpg) hpp q hq

theorem multiPolygon_pairwise {R : P → P → Prop} {cs : List (Cut P)} {ps : List P} (h : multiPolygon cs = .ok ps)
    (hR : cs.Pairwise fun a b => ∀ p q, a = .polygon p → b = .polygon q → R p q) : ps.Pairwise R := by
  induction cs generalizing ps with
  | nil => simp only [multiPolygon] at h; cases h; exact .nil
  | cons c cs ih =>
    rw [List.pairwise_cons] at hR
    cases c with
    | nothing => exact ih h hR.2
    | polygon p =>
      simp only [multiPolygon] at h
      split at h
      · rename_i qs hq
        cases h
        refine List.pairwise_cons.2 ⟨fun q hqm => ?_, ih hq hR.2⟩
        exact hR.1 _ (((multiPolygon_ok hq).1 q).1 hqm) p q rfl rfl
      · cases h
    | collection _ => simp [multiPolygon] at h

/-- Two of the quadrants have only points of the dividing lines in common. -/
theorem quadrants_overlap (b : Box) (c : Rat × Rat) :
    (quadrants b c).Pairwise fun q q' => ∀ x y, Inside q x y → Inside q' x y → x = c.1 ∨ y = c.2 := by
  unfold quadrants Inside
  simp only [List.pairwise_cons, List.mem_cons, List.not_mem_nil, or_false, forall_eq_or_imp, forall_eq, List.Pairwise.nil, and_true,
    false_implies, implies_true]
  refine ⟨⟨?_, ?_, ?_⟩, ⟨?_, ?_⟩, ?_⟩ <;> intro x y h1 h2 <;> grind

theorem split_overlap (hE : GeometryLaws E covers) {p : P} {r : Ring} (hr : E.interiors p = [r]) {ps : List P} (h : split E [p] = .ok ps) :
    ps.Pairwise fun a b => ∀ x y, covers a x y → covers b x y → x = (E.centroid r).1 ∨ y = (E.centroid r).2 := by
  obtain ⟨pss, hp, rfl⟩ := split_ok h
  cases mapM_forall₂ hp with
  | cons hs hn =>
    cases hn
    simp only [splitPart, splitPieces, hr, List.isEmpty_cons, Bool.false_eq_true, if_false, List.flatMap_cons, List.flatMap_nil,
      List.append_nil] at hs
    rw [List.flatten_cons, List.flatten_nil, List.append_nil]
    refine multiPolygon_pairwise hs (List.pairwise_map.2 ((quadrants_overlap _ _).imp ?_))
    intro a b hab q q' hq hq' x y hx hy
    exact hab x y (hE.within p a q (.inl hq) x y hx).2 (hE.within p b q' (.inl hq') x y hy).2

/-! ## Many nodes -/

theorem splitShape_pos {c t : Nat} (ht : 0 < t) (hc : t < c) : 0 < splitShape c t := by
  have hn : 0 < (c + t - 1) / t := Nat.div_pos (by omega) ht
  unfold splitShape
  simp only
  split
  · omega
  · unfold ceilSqrt
    cases hf : (List.range ((c + t - 1) / t + 1)).find? fun k => decide ((c + t - 1) / t ≤ k * k) with
    | none => simpa using hn
    | some k =>
      have := List.find?_some hf
      simp only [decide_eq_true_eq] at this
      rw [Option.getD_some]
      rcases Nat.eq_zero_or_pos k with rfl | hk
      · omega
      · exact hk

theorem mem_parts {c : Cut P} {q : P} : some q ∈ c.parts ↔ PieceOf c q := by
  cases c <;> simp [Cut.parts, PieceOf, eq_comm]

theorem jitter_none (b : Box) : jittered b ⟨0, 0, 0, 0⟩ = b := by
  cases b
  simp only [jittered]
  congr 1 <;> grind

theorem thresholdPart_area (hE : GeometryLaws E covers) {t : Nat} (ht : 0 < t) (p : P) (hn : none ∉ thresholdPart E t p) (x y : Rat) :
    covers p x y ↔ ∃ q, some q ∈ thresholdPart E t p ∧ covers q x y := by
  unfold thresholdPart at hn ⊢
  split
  · rename_i hl
    rw [if_pos hl] at hn
    simp only [List.mem_flatMap, not_exists, not_and] at hn ⊢
    constructor
    · intro hc
      have hpos := splitShape_pos ht hl
      obtain ⟨b, hb, hin⟩ := Ocgis.Props.C24_no_gaps (E.bounds p) _ _ hpos hpos ⟨0, 0, 0, 0⟩ x y (by rw [jitter_none]; exact hE.bounds p x y hc)
      cases hcut : E.cut p b with
      | nothing => exact absurd ⟨hc, hin⟩ (hE.apart p b hcut x y)
      | polygon q => exact ⟨q, ⟨b, hb, mem_parts.2 (.inl hcut)⟩, hE.whole p b q hcut x y hc hin⟩
      | collection qs =>
        have hnn : none ∉ qs := by
          have := hn b hb
          rw [hcut] at this
          exact this
        obtain ⟨q, hq, hcq⟩ := hE.wholes p b qs hcut hnn x y hc hin
        exact ⟨q, ⟨b, hb, mem_parts.2 (.inr ⟨qs, hcut, hq⟩)⟩, hcq⟩
    · rintro ⟨q, ⟨b, _, hq⟩, hc⟩
      exact (hE.within p b q (mem_parts.1 hq) x y hc).1
  · simp

theorem byThreshold_ok {t : Nat} {g ps : List P} (h : byThreshold E t g = .ok ps) :
    (∀ p ∈ g, none ∉ thresholdPart E t p) ∧ ∀ q, q ∈ ps ↔ ∃ p ∈ g, some q ∈ thresholdPart E t p := by
  unfold byThreshold at h
  simp only at h
  split at h
  · cases h
  · rename_i hn
    cases h
    constructor
    · intro p hp hm
      apply hn
      rw [List.any_eq_true]
      exact ⟨none, List.mem_flatMap.2 ⟨p, hp, hm⟩, rfl⟩
    · intro q
      simp [List.mem_filterMap, List.mem_flatMap]

theorem byThreshold_area (hE : GeometryLaws E covers) {t : Nat} (ht : 0 < t) {g ps : List P} (h : byThreshold E t g = .ok ps) :
    SameArea covers g ps := by
  obtain ⟨h1, h2⟩ := byThreshold_ok h
  intro x y
  constructor
  · rintro ⟨p, hp, hc⟩
    obtain ⟨q, hq, hcq⟩ := (thresholdPart_area hE ht p (h1 p hp) x y).1 hc
    exact ⟨q, (h2 q).2 ⟨p, hp, hq⟩, hcq⟩
  · rintro ⟨q, hq, hc⟩
    obtain ⟨p, hp, hqp⟩ := (h2 q).1 hq
    exact ⟨p, hp, (thresholdPart_area hE ht p (h1 p hp) x y).2 ⟨q, hqp, hc⟩⟩

theorem byThreshold_holes (hE : GeometryLaws E covers) {t : Nat} {g ps : List P} (h : byThreshold E t g = .ok ps)
    (hg : ∀ p ∈ g, E.interiors p = []) : ∀ q ∈ ps, E.interiors q = [] := by
  obtain ⟨_, h2⟩ := byThreshold_ok h
  intro q hq
  obtain ⟨p, hp, hqp⟩ := (h2 q).1 hq
  unfold thresholdPart at hqp
  split at hqp
  · obtain ⟨b, _, hb⟩ := List.mem_flatMap.1 hqp
    cases hi : E.interiors q with
    | nil => rfl
    | cons r rs =>
      obtain ⟨r', hr', _⟩ := hE.holes p b q (mem_parts.1 hb) r (by simp [hi])
      rw [hg p hp] at hr'
      cases hr'
  · simp only [List.mem_singleton, Option.some.injEq] at hqp
    exact hqp ▸ hg p hp

/-! ## Self-intersections -/

theorem duplicates_ge (cs : List Coord) (rest : List Coord) (i : Nat) (removed : List Coord) : ∀ k ∈ duplicates cs rest i removed, i ≤ k := by
  induction rest generalizing i removed with
  | nil => simp [duplicates]
  | cons c rest ih =>
    intro k hk
    unfold duplicates at hk
    split at hk
    · rcases List.mem_cons.1 hk with rfl | hk
      · exact Nat.le_refl _
      · have := ih _ _ k hk; omega
    · have := ih _ _ k hk; omega

/-- What is kept, place after place. -/
def keptFrom (cs : List Coord) : List Coord → List Coord → List Coord
  | [], _ => []
  | c :: rest, removed =>
    if decide (1 < cs.count c) && !removed.contains c then keptFrom cs rest (removed ++ [c]) else c :: keptFrom cs rest removed

theorem filter_later (rest : List Coord) (i j : Nat) (hj : j < i) (is : List Nat) :
    (rest.zipIdx i).filter (fun p => !(j :: is).contains p.2) = (rest.zipIdx i).filter fun p => !is.contains p.2 := by
  apply List.filter_congr
  intro p hp
  have := List.le_snd_of_mem_zipIdx hp
  have hne : p.2 ≠ j := by omega
  simp [hne]

theorem kept_eq (cs rest : List Coord) (i : Nat) (removed : List Coord) :
    ((rest.zipIdx i).filter fun p => !(duplicates cs rest i removed).contains p.2).map (·.1) = keptFrom cs rest removed := by
  induction rest generalizing i removed with
  | nil => rfl
  | cons c rest ih =>
    rw [List.zipIdx_cons]
    unfold duplicates keptFrom
    split
    · rw [List.filter_cons, if_neg (by simp), filter_later _ _ _ (by omega)]
      exact ih (i + 1) _
    · have hni : i ∉ duplicates cs rest (i + 1) removed := fun hm => by have := duplicates_ge cs _ _ _ i hm; omega
      rw [List.filter_cons, if_pos (by simpa using hni), List.map_cons]
      exact congrArg _ (ih (i + 1) _)

theorem thin_eq (cs : List Coord) : thin cs = keptFrom cs cs [] := kept_eq cs cs 0 []

theorem keptFrom_count (cs rest removed : List Coord) (c : Coord) :
    (keptFrom cs rest removed).count c = if 1 < cs.count c ∧ c ∉ removed then rest.count c - 1 else rest.count c := by
  induction rest generalizing removed with
  | nil => simp [keptFrom]
  | cons d rest ih =>
    unfold keptFrom
    by_cases hd : 1 < cs.count d ∧ d ∉ removed
    · rw [if_pos (by simpa using hd), ih]
      by_cases hcd : c = d
      · subst hcd; simp [hd]
      · have hdc : d ≠ c := fun e => hcd e.symm
        simp [hcd, hdc]
    · rw [if_neg (by simpa using hd), List.count_cons, ih]
      by_cases hcd : d = c
      · subst hcd; simp [hd]
      · simp [hcd]

theorem thin_count (cs : List Coord) (c : Coord) : (thin cs).count c = if 1 < cs.count c then cs.count c - 1 else cs.count c := by
  rw [thin_eq, keptFrom_count]
  simp

theorem thin_sublist (cs : List Coord) : (thin cs).Sublist cs := by
  have := (List.filter_sublist (p := fun p : Coord × Nat => !(duplicates cs cs 0 []).contains p.2) (l := cs.zipIdx)).map (·.1)
  simpa [thin, without] using this

theorem duplicates_empty {cs : List Coord} (h : (duplicates cs cs 0 []).isEmpty = true) : thin cs = cs := by
  unfold thin without
  rw [List.isEmpty_iff.1 h]
  simp

/-! ## Leaving polygons out -/

theorem mem_filter_idx {β : Type} {xs : List β} {p : β → Bool} {k : Nat} {x : β} {i : Nat}
    (h : ((xs.zipIdx).filter fun q => p q.1)[k]? = some (x, i)) : xs[i]? = some x ∧ p x = true := by
  have hm := List.mem_of_getElem? h
  rw [List.mem_filter] at hm
  exact ⟨List.mk_mem_zipIdx_iff_getElem?.1 hm.1, hm.2⟩

theorem filterMap_get {α β : Type} {f : α → Option β} {xs : List α} (h : ∀ x ∈ xs, (f x).isSome) (k : Nat) :
    (xs.filterMap f)[k]? = xs[k]?.bind f := by
  induction xs generalizing k with
  | nil => simp
  | cons x xs ih =>
    obtain ⟨y, hy⟩ := Option.isSome_iff_exists.1 (h x (by simp))
    rw [List.filterMap_cons_some hy]
    cases k with
    | zero => simp [hy]
    | succ k => simpa using ih (fun x hx => h x (by simp [hx])) k

theorem filterMap_length {α β : Type} {f : α → Option β} {xs : List α} (h : ∀ x ∈ xs, (f x).isSome) :
    (xs.filterMap f).length = xs.length := by
  induction xs with
  | nil => rfl
  | cons x xs ih =>
    obtain ⟨y, hy⟩ := Option.isSome_iff_exists.1 (h x (by simp))
    rw [List.filterMap_cons_some hy]
    simp [ih fun x hx => h x (by simp [hx])]

theorem openedHoles_area (hE : GeometryLaws E covers) {o : Opts} {ps qs : List P} {m : Bool} (h : openedHoles E o ps = .ok (some qs, m)) :
    SameArea covers ps qs ∧ (m = false → qs = ps) ∧ ((∀ p ∈ ps, (E.interiors p).length ≤ 1) → ∀ q ∈ qs, E.interiors q = []) := by
  unfold openedHoles at h
  split at h
  · rename_i h0
    cases h
    refine ⟨sameArea_refl _, fun _ => rfl, fun _ q hq => ?_⟩
    unfold countInteriors at h0
    have := List.sum_eq_zero_iff_forall_eq_nat.1 h0 _ (List.mem_map.2 ⟨q, hq, rfl⟩)
    exact List.length_eq_zero_iff.1 this
  · split at h
    · split at h
      · rename_i hs
        cases h
        exact ⟨split_area hE hs, nofun, fun h1 => split_holes hE h1 hs⟩
      · split at h <;> cases h
    · cases h

theorem fewNodes_area (hE : GeometryLaws E covers) {o : Opts} (ht : ∀ t, o.nodeThreshold = some t → 0 < t) {ps qs : List P} {m m' : Bool}
    (h : fewNodes E o ps m = .ok (some qs, m')) :
    SameArea covers ps qs ∧ (m' = false → qs = ps ∧ m = false) ∧ ((∀ p ∈ ps, E.interiors p = []) → ∀ q ∈ qs, E.interiors q = []) := by
  unfold fewNodes at h
  split at h
  · cases h; exact ⟨sameArea_refl _, fun h => ⟨rfl, h⟩, id⟩
  · rename_i t hto
    split at h
    · split at h
      · rename_i hs
        cases h
        exact ⟨byThreshold_area hE (ht t hto) hs, nofun, fun h1 => byThreshold_holes hE hs h1⟩
      · split at h <;> cases h
    · cases h; exact ⟨sameArea_refl _, fun h => ⟨rfl, h⟩, id⟩

theorem prepare_area (hE : GeometryLaws E covers) {o : Opts} (ht : ∀ t, o.nodeThreshold = some t → 0 < t) (hs : o.removeSelf = false)
    {g : Geom P} {ps : List P} {m : Bool} (h : prepare E o g = .ok (some ps, m)) :
    SameArea covers g.parts ps ∧ (m = false → ps = g.parts) ∧
    ((∀ p ∈ g.parts, (E.interiors p).length ≤ 1) → ∀ q ∈ ps, E.interiors q = []) := by
  simp only [prepare, cleaned, hs, Bool.false_eq_true, if_false] at h
  split at h
  · cases h
  · cases h
  · rename_i qs multi ho
    obtain ⟨a1, a2, a3⟩ := openedHoles_area hE ho
    obtain ⟨b1, b2, b3⟩ := fewNodes_area hE ht h
    refine ⟨sameArea_trans a1 b1, fun hm => ?_, fun h1 => b3 (a3 h1)⟩
    obtain ⟨c1, c2⟩ := b2 hm
    rw [c1, a2 c2]

theorem nodesOf_written {o : Opts} {p : P} {r : List Coord} (h : nodesOf E o p = .ok r) : WrittenAs E o.repeatLast p r := by
  intro hv
  unfold nodesOf oriented at h
  simp only [hv, if_true] at h
  cases h
  refine ⟨_, ?_, ?_, rfl⟩ <;> intro hc <;> simp [hc]

theorem element_ok {o : Opts} {g : Geom P} {e : Option (List (List Coord))} {m : Bool} (h : element E o g = .ok (e, m)) :
    (e = none ∧ prepare E o g = .ok (none, m)) ∨
    ∃ rs ps, e = some rs ∧ prepare E o g = .ok (some ps, m) ∧ List.Forall₂ (WrittenAs E o.repeatLast) ps rs ∧ rs.length = ps.length := by
  unfold element at h
  split at h
  · cases h
  · rename_i hp; cases h; exact .inl ⟨rfl, hp⟩
  · rename_i ps multi hp
    split at h
    · cases h
    · rename_i rs hr
      cases h
      have hf := mapM_forall₂ hr
      exact .inr ⟨rs, ps, rfl, hp, hf.imp fun _ _ => nodesOf_written, hf.length_eq.symm⟩

theorem convert_ok {δ : Type} {o : Opts} {gs : List (Geom P)} {data : List δ} {c : Converted δ} (h : convert E o gs data = .ok c) :
    ∃ es, gs.mapM (element E o) = .ok es ∧ (c.nodes, c.rows) = Geomc.toCoords o.pack o.startIndex o.mbv (es.filterMap (·.1)) ∧
      c.breakValue = (if gs.any (·.multi) || es.any (·.2) then some o.mbv else none) ∧
      c.data = ((es.zip data).filter fun p => p.1.1.isSome).map (·.2) := by
  unfold convert at h
  split at h
  · cases h
  · rename_i es he
    split at h
    · cases h
    · cases h; exact ⟨es, he, rfl, rfl, rfl⟩

/-- The places of the kept, their shapes and their data belong together. -/
theorem kept_places {α δ : Type} (es : List (Option α × Bool)) (data : List δ) (hd : data.length = es.length) :
    ∃ kept : List Nat, kept.Pairwise (· < ·) ∧ (∀ i ∈ kept, i < es.length) ∧
      (∀ i e, es[i]? = some e → (i ∈ kept ↔ e.1.isSome = true)) ∧
      (es.filterMap (·.1)).length = kept.length ∧
      (((es.zip data).filter fun p => p.1.1.isSome).map (·.2)).length = kept.length ∧
      ∀ (k i : Nat), kept[k]? = some i → (((es.zip data).filter fun p => p.1.1.isSome).map (·.2))[k]? = data[i]? ∧
        ∃ e, es[i]? = some e ∧ (es.filterMap (·.1))[k]? = e.1 := by
  let L := ((es.zip data).zipIdx).filter fun q => q.1.1.1.isSome
  have hL1 : ((es.zip data).filter fun p => p.1.1.isSome) = L.map (·.1) := by
    show _ = List.map Prod.fst (List.filter ((fun p : (Option α × Bool) × δ => p.1.1.isSome) ∘ Prod.fst) _)
    rw [← List.filter_map, List.zipIdx_map_fst]
  have hzip : (es.zip data).map (·.1) = es := List.map_fst_zip (by omega)
  have hL2 : es.filterMap (·.1) = L.filterMap (·.1.1.1) := by
    have h1 : es.filterMap (·.1) = ((es.zip data).zipIdx.map fun q => q.1.1).filterMap (·.1) := by
      rw [show (fun q : ((Option α × Bool) × δ) × Nat => q.1.1) = (fun p : (Option α × Bool) × δ => p.1) ∘ Prod.fst from rfl,
        ← List.map_map, List.zipIdx_map_fst, hzip]
    rw [h1, List.filterMap_map]
    show _ = List.filterMap _ (List.filter _ _)
    rw [List.filterMap_filter]
    apply List.filterMap_congr
    intro q _
    cases hq : q.1.1.1 <;> simp [hq]
  have hsome : ∀ q ∈ L, (q.1.1.1).isSome = true := fun q hq => (List.mem_filter.1 hq).2
  have hget : ∀ (i : Nat) (e : Option α × Bool) (d : δ), (es.zip data)[i]? = some (e, d) ↔ es[i]? = some e ∧ data[i]? = some d := by
    intro i e d; rw [List.getElem?_zip_eq_some]
  refine ⟨L.map (·.2), ?_, ?_, ?_, ?_, ?_, ?_⟩
  · have hs : (L.map (·.2)).Sublist ((es.zip data).zipIdx.map (·.2)) := List.filter_sublist.map _
    have hp : ((es.zip data).zipIdx.map (·.2)).Pairwise (· < ·) := by
      rw [List.zipIdx_map_snd]
      exact List.pairwise_lt_range'
    exact hp.sublist hs
  · intro i hi
    obtain ⟨⟨⟨e, d⟩, j⟩, hq, rfl⟩ := List.mem_map.1 hi
    have := List.mk_mem_zipIdx_iff_getElem?.1 (List.mem_filter.1 hq).1
    exact (List.getElem?_eq_some_iff.1 ((hget _ _ _).1 this).1).1
  · intro i e he
    have hi : i < es.length := (List.getElem?_eq_some_iff.1 he).1
    obtain ⟨d, hdi⟩ : ∃ d, data[i]? = some d := ⟨data[i]'(by omega), List.getElem?_eq_getElem (by omega)⟩
    constructor
    · intro hm
      obtain ⟨⟨⟨e', d'⟩, j⟩, hq, rfl⟩ := List.mem_map.1 hm
      have := ((hget _ _ _).1 (List.mk_mem_zipIdx_iff_getElem?.1 (List.mem_filter.1 hq).1)).1
      rw [he] at this
      cases this
      exact hsome _ hq
    · intro hs
      exact List.mem_map.2 ⟨((e, d), i), List.mem_filter.2 ⟨List.mk_mem_zipIdx_iff_getElem?.2 ((hget _ _ _).2 ⟨he, hdi⟩), hs⟩, rfl⟩
  · rw [hL2, filterMap_length hsome, List.length_map]
  · rw [hL1, List.length_map, List.length_map, List.length_map]
  · intro k i hk
    rw [List.getElem?_map] at hk
    cases hq : L[k]? with
    | none => rw [hq] at hk; cases hk
    | some q =>
      obtain ⟨⟨e, d⟩, j⟩ := q
      rw [hq] at hk
      cases hk
      have hz := (hget _ _ _).1 (List.mk_mem_zipIdx_iff_getElem?.1 (List.mem_filter.1 (List.mem_of_getElem? hq)).1)
      refine ⟨?_, e, hz.1, ?_⟩
      · rw [hL1, List.getElem?_map, List.getElem?_map, hq, hz.2]; rfl
      · rw [hL2, filterMap_get hsome, hq]; rfl

end Ocgis.Proofs.GeomPrep
