import Verif.Spec.CfMeta
/-!
# Lemmas
-/
namespace Ocgis.Props
open Ocgis Ocgis.CfMeta Ocgis.Spec

theorem cfLookup_iff {β : Type} {l : List (String × β)} (hn : (l.map Prod.fst).Nodup) (k : String) (v : β) :
    l.lookup k = some v ↔ (k, v) ∈ l := by
  induction l with
  | nil => simp
  | cons p l ih =>
    obtain ⟨a, b⟩ := p
    simp only [List.map_cons, List.nodup_cons] at hn
    by_cases h : k = a
    · subst h
      simp only [List.lookup_cons, BEq.rfl, List.mem_cons, Prod.mk.injEq]
      constructor
      · intro e; cases e; simp
      · rintro (⟨-, rfl⟩ | h)
        · rfl
        · exact absurd (List.mem_map_of_mem (f := Prod.fst) h) hn.1
    · have : (k == a) = false := by simpa using h
      simp only [List.lookup_cons, this, List.mem_cons, Prod.mk.injEq, h, false_and, false_or]
      exact ih hn.2

theorem singleton_iff {c : List String} (hn : c.Nodup) (k : String) : c = [k] ↔ OnlyOne (· ∈ c) k := by
  constructor
  · rintro rfl; simp [OnlyOne]
  · rintro ⟨h, ho⟩
    match c, hn, h, ho with
    | [a], _, h, ho => simp at h; rw [h]
    | a :: b :: l, hn, h, ho =>
      have ha := ho a (by simp)
      have hb := ho b (by simp)
      simp at hn
      exact absurd (ha.trans hb.symm) hn.1.1

theorem mem_marked {vars : Vars} (hw : FileMeta vars) (attr value k : String) :
    k ∈ marked attr value vars ↔ SaysAxis attr value vars k := by
  simp only [marked, List.mem_filterMap, SaysAxis, HasAttr]
  constructor
  · rintro ⟨⟨k', v⟩, hm, h⟩
    split at h
    case isFalse => cases h
    case isTrue hc =>
      obtain ⟨hn, as, ha⟩ := hw.2 k' v hm
      cases h
      refine ⟨v, by rw [hn]; exact hm, hc.2, as, ha, ?_⟩
      simpa [attrOf, ha] using hc.1
  · rintro ⟨v, hm, hd, as, ha, hl⟩
    refine ⟨(k, v), hm, ?_⟩
    rw [if_pos ⟨by simpa [attrOf, ha] using hl, hd⟩, (hw.2 k v hm).1]

theorem nodup_marked {vars : Vars} (hw : FileMeta vars) (attr value : String) : (marked attr value vars).Nodup := by
  have hs : (marked attr value vars).Sublist (vars.map Prod.fst) := by
    have hn : ∀ k v, (k, v) ∈ vars → v.name = k := fun k v h => (hw.2 k v h).1
    clear hw
    unfold marked
    induction vars with
    | nil => simp
    | cons p l ih =>
      have := ih fun k v h => hn k v (List.mem_cons_of_mem _ h)
      rw [List.filterMap_cons, List.map_cons]
      have hp := hn p.1 p.2 List.mem_cons_self
      split
      · exact this.cons _
      · rename_i b hb
        split at hb
        · cases hb; rw [hp]; exact this.cons_cons _
        · cases hb
  exact hs.nodup hw.1

theorem usual_iff (axis : Axis) (k : String) : k ∈ defaultNames axis ↔ UsualName axis k := by
  cases axis <;> simp [defaultNames, UsualName]

theorem mem_named {vars : Vars} (hw : FileMeta vars) (axis : Axis) (k : String) :
    k ∈ named axis vars ↔ HasUsualName axis vars k := by
  simp only [named, List.mem_filterMap, HasUsualName]
  constructor
  · rintro ⟨n, hn, h⟩
    cases hl : vars.lookup n with
    | none => rw [hl] at h; cases h
    | some v =>
      rw [hl] at h
      have hm := (cfLookup_iff hw.1 n v).1 hl
      have := (hw.2 n v hm).1
      simp only [Option.map_some, Option.some.injEq] at h
      rw [← h, this]
      exact ⟨(usual_iff axis n).1 hn, v, hm⟩
  · rintro ⟨hu, v, hm⟩
    refine ⟨k, (usual_iff axis k).2 hu, ?_⟩
    rw [(cfLookup_iff hw.1 k v).2 hm]
    simp [(hw.2 k v hm).1]

theorem nodup_named {vars : Vars} (hw : FileMeta vars) (axis : Axis) : (named axis vars).Nodup := by
  have hs : ∀ l : List String, (l.filterMap fun n => (vars.lookup n).map VarMeta.name).Sublist l := by
    intro l
    induction l with
    | nil => simp
    | cons n l ih =>
      rw [List.filterMap_cons]
      split
      · exact ih.cons _
      · rename_i b hb
        cases hl : vars.lookup n with
        | none => rw [hl] at hb; cases hb
        | some v =>
          rw [hl] at hb
          have := (hw.2 n v ((cfLookup_iff hw.1 n v).1 hl)).1
          simp only [Option.map_some, Option.some.injEq] at hb
          rw [← hb, this]; exact ih.cons_cons _
  exact (hs _).nodup (by cases axis <;> decide)

/-- The candidates for an axis. -/
theorem candidates {vars : Vars} (hw : FileMeta vars) (strict : Bool) (attr value : String) (axis : Axis) (k : String) :
    (if strict = false ∧ marked attr value vars = [] then named axis vars else marked attr value vars) = [k] ↔
      IsCoord strict attr value axis vars k := by
  have he : marked attr value vars = [] ↔ ∀ j, ¬ SaysAxis attr value vars j := by
    rw [List.eq_nil_iff_forall_not_mem]
    exact forall_congr' fun j => not_congr (mem_marked hw attr value j)
  have h1 : marked attr value vars = [k] ↔ OnlyOne (SaysAxis attr value vars) k := by
    rw [singleton_iff (nodup_marked hw attr value)]
    simp only [OnlyOne, mem_marked hw]
  have h2 : named axis vars = [k] ↔ OnlyOne (HasUsualName axis vars) k := by
    rw [singleton_iff (nodup_named hw axis)]
    simp only [OnlyOne, mem_named hw]
  unfold IsCoord
  split
  case isTrue hc =>
    rw [h2]
    constructor
    · intro h; exact Or.inr ⟨hc.1, he.1 hc.2, h⟩
    · rintro (h | h)
      · exact absurd h.1 (he.1 hc.2 k)
      · exact h.2.2
  case isFalse hc =>
    rw [h1]
    constructor
    · exact Or.inl
    · rintro (h | h)
      · exact h
      · exact absurd ⟨h.1, he.2 h.2.1⟩ hc

theorem axisEntry_iff {vars : Vars} (hw : FileMeta vars) (strict : Bool) (attr value : String) (axis : Axis) (k : String)
    (d : List String) :
    axisEntry strict attr value axis vars = .ok (some (k, d)) ↔
      IsCoord strict attr value axis vars k ∧ ∃ v, (k, v) ∈ vars ∧ d = repDims strict axis v.dims := by
  rw [← candidates hw]
  unfold axisEntry
  generalize (if strict = false ∧ marked attr value vars = [] then named axis vars else marked attr value vars) = c
  match c with
  | [] => simp
  | [n] =>
    simp only [List.cons.injEq, and_true]
    cases hl : vars.lookup n with
    | none =>
      simp only [reduceCtorEq, false_iff, not_and]
      rintro rfl ⟨v, hm, -⟩
      rw [(cfLookup_iff hw.1 _ v).2 hm] at hl
      cases hl
    | some v =>
      have hm := (cfLookup_iff hw.1 n v).1 hl
      simp only [Except.ok.injEq, Option.some.injEq, Prod.mk.injEq]
      constructor
      · rintro ⟨rfl, rfl⟩; exact ⟨rfl, v, hm, rfl⟩
      · rintro ⟨rfl, v', hm', rfl⟩
        have : v' = v := by
          have := (cfLookup_iff hw.1 _ v').2 hm'
          rw [hl] at this; cases this; rfl
        exact ⟨rfl, by rw [this]⟩
  | _ :: _ :: _ => simp

theorem axisEntry_total {vars : Vars} (hw : FileMeta vars) (strict : Bool) (attr value : String) (axis : Axis) :
    ∃ r, axisEntry strict attr value axis vars = .ok r := by
  unfold axisEntry
  have hc := candidates hw strict attr value axis
  generalize (if strict = false ∧ marked attr value vars = [] then named axis vars else marked attr value vars) = c at hc
  match c with
  | [] => exact ⟨_, rfl⟩
  | [n] =>
    have : ∃ v, (n, v) ∈ vars := by
      rcases (hc n).1 rfl with h | h
      · obtain ⟨v, hm, -⟩ := h.1; exact ⟨v, hm⟩
      · exact h.2.2.1.2
    obtain ⟨v, hm⟩ := this
    simp only [(cfLookup_iff hw.1 n v).2 hm]
    exact ⟨_, rfl⟩
  | _ :: _ :: _ => exact ⟨_, rfl⟩

theorem repDims_spec (strict : Bool) (axis : Axis) (dims : List String) : DimOf strict axis dims (repDims strict axis dims) := by
  unfold DimOf repDims
  cases strict
  · cases axis <;> match dims with
      | [] => simp
      | [_] => simp
      | _ :: _ :: _ => simp
  · simp

theorem boundsOf_iff {v : VarMeta} {vars : Vars} {as : List (String × String)} (hw : FileMeta vars) (ha : v.attrs = some as)
    (axis : Axis) {r : Option String} (h : boundsOf axis v vars = .ok r) (b : String) :
    r = some b ↔ GivesBounds axis v b ∧ ∃ w, (b, w) ∈ vars := by
  have hx : ∀ c, (vars.lookup c).isSome = true ↔ ∃ w, (c, w) ∈ vars := by
    intro c
    rw [Option.isSome_iff_exists]
    exact exists_congr fun w => cfLookup_iff hw.1 c w
  simp only [← hx]
  unfold boundsOf at h
  simp only [GivesBounds, HasAttr, ha, Option.some.injEq, exists_eq_left']
  by_cases hR : axis = .R
  · subst hR
    simp at h
    simp [← h]
  · rw [if_neg hR, ha] at h
    simp only at h
    by_cases hT : axis = .T
    · subst hT
      rw [if_pos rfl] at h
      cases h1 : as.lookup "bounds" <;> cases h2 : as.lookup "climatology" <;> rw [h1, h2] at h <;> simp at h <;> subst h <;> simp
      all_goals
        constructor
        · rintro ⟨hh, rfl⟩; exact ⟨rfl, hh⟩
        · rintro ⟨rfl, hh⟩; exact ⟨hh, rfl⟩
    · rw [if_neg hT] at h
      cases h1 : as.lookup "bounds" <;> rw [h1] at h <;> simp at h <;> subst h <;> simp [hR, hT]
      constructor
      · rintro ⟨hh, rfl⟩; exact ⟨rfl, hh⟩
      · rintro ⟨rfl, hh⟩; exact ⟨hh, rfl⟩

theorem fullEntry_iff {vars : Vars} (hw : FileMeta vars) (strict : Bool) (attr value : String) (axis : Axis) {r : Option Entry}
    (h : fullEntry strict attr value axis vars = .ok r) (e : Entry) :
    r = some e ↔ IsCoord strict attr value axis vars e.coord ∧ ∃ v, (e.coord, v) ∈ vars ∧ e.dims = repDims strict axis v.dims ∧
      boundsOf axis v vars = .ok e.bounds := by
  unfold fullEntry at h
  obtain ⟨o, ho⟩ := axisEntry_total hw strict attr value axis
  have hi := axisEntry_iff hw strict attr value axis
  rw [ho] at h hi
  cases o with
  | none =>
    simp at h
    subst h
    simp only [reduceCtorEq, false_iff, not_and]
    rintro hc ⟨v, hm, hd, -⟩
    have := (hi e.coord e.dims).2 ⟨hc, v, hm, hd⟩
    cases this
  | some nd =>
    obtain ⟨n, d⟩ := nd
    obtain ⟨hc, v, hm, hd⟩ := (hi n d).1 rfl
    simp only [(cfLookup_iff hw.1 n v).2 hm] at h
    cases hb : boundsOf axis v vars with
    | error e => rw [hb] at h; cases h
    | ok b =>
      rw [hb] at h
      simp at h
      subst h
      simp only [Option.some.injEq]
      constructor
      · rintro rfl; exact ⟨hc, v, hm, hd, hb⟩
      · rintro ⟨hc', v', hm', hd', hb'⟩
        have := (hi e.coord e.dims).2 ⟨hc', v', hm', hd'⟩
        simp only [Except.ok.injEq, Option.some.injEq, Prod.mk.injEq] at this
        obtain ⟨rfl, rfl⟩ := this
        have hv := (cfLookup_iff hw.1 _ v).2 hm
        rw [(cfLookup_iff hw.1 _ v').2 hm'] at hv
        cases hv
        rw [hb] at hb'
        cases hb'
        rfl

theorem createMap_at {strict rotated : Bool} {vars : Vars} {m : Map} (h : createMap strict rotated vars = .ok m) (a : Axis) :
    finalEntry strict rotated vars a = .ok (m a) := by
  unfold createMap at h
  cases hR : finalEntry strict rotated vars .R <;> cases hT : finalEntry strict rotated vars .T <;>
    cases hZ : finalEntry strict rotated vars .Z <;> cases hY : finalEntry strict rotated vars .Y <;>
    cases hX : finalEntry strict rotated vars .X <;> rw [hR, hT, hZ, hY, hX] at h <;> first | cases h; done | skip
  cases h
  cases a <;> assumption

theorem text_eq (a : Axis) : a.text = axisText a := by cases a <;> rfl

theorem unrotated_at {strict : Bool} {vars : Vars} {m : Map} (h : createMap strict false vars = .ok m) (a : Axis) :
    fullEntry strict "axis" (axisText a) a vars = .ok (m a) := by
  have := createMap_at h a
  unfold finalEntry swapped at this
  rw [text_eq] at this
  cases hf : fullEntry strict "axis" (axisText a) a vars with
  | error e => rw [hf] at this; cases this
  | ok e => rw [hf] at this; simpa using this

theorem fullEntry_some {vars : Vars} (hw : FileMeta vars) {strict : Bool} {attr value : String} {axis : Axis} {r : Option Entry}
    (h : fullEntry strict attr value axis vars = .ok r) {k : String} (hc : IsCoord strict attr value axis vars k) :
    ∃ e, r = some e ∧ e.coord = k := by
  have hv : ∃ v, (k, v) ∈ vars := by
    rcases hc with h | h
    · obtain ⟨v, hm, -⟩ := h.1; exact ⟨v, hm⟩
    · exact h.2.2.1.2
  obtain ⟨v, hm⟩ := hv
  have ho := (axisEntry_iff hw strict attr value axis k _).2 ⟨hc, v, hm, rfl⟩
  unfold fullEntry at h
  rw [ho] at h
  simp only [(cfLookup_iff hw.1 k v).2 hm] at h
  cases hb : boundsOf axis v vars with
  | error e => rw [hb] at h; cases h
  | ok b =>
    rw [hb] at h
    simp only [Except.ok.injEq] at h
    exact ⟨_, h.symm, rfl⟩

theorem boundsOf_error {v : VarMeta} {vars : Vars} {as : List (String × String)} (ha : v.attrs = some as) (axis : Axis) (e : PyErr) :
    boundsOf axis v vars = .error e ↔ e = .valueError ∧ axis = .T ∧ (∃ b, HasAttr v "bounds" b) ∧ ∃ c, HasAttr v "climatology" c := by
  simp only [HasAttr, ha, Option.some.injEq, exists_eq_left']
  unfold boundsOf
  by_cases hR : axis = .R
  · subst hR; simp
  · rw [if_neg hR, ha]
    simp only
    by_cases hT : axis = .T
    · subst hT
      rw [if_pos rfl]
      cases h1 : as.lookup "bounds" <;> cases h2 : as.lookup "climatology" <;> simp
      exact eq_comm
    · rw [if_neg hT]
      cases h1 : as.lookup "bounds" <;> simp [hT]

theorem fullEntry_error {vars : Vars} (hw : FileMeta vars) (strict : Bool) (attr value : String) (axis : Axis) (e : PyErr) :
    fullEntry strict attr value axis vars = .error e ↔ e = .valueError ∧ axis = .T ∧ ∃ k v, IsCoord strict attr value axis vars k ∧
      (k, v) ∈ vars ∧ (∃ b, HasAttr v "bounds" b) ∧ ∃ c, HasAttr v "climatology" c := by
  unfold fullEntry
  obtain ⟨o, ho⟩ := axisEntry_total hw strict attr value axis
  have hi := axisEntry_iff hw strict attr value axis
  rw [ho] at hi ⊢
  cases o with
  | none =>
    simp only [reduceCtorEq, false_iff, not_and]
    rintro - - ⟨k, v, hc, hm, -⟩
    have := (hi k _).2 ⟨hc, v, hm, rfl⟩
    cases this
  | some nd =>
    obtain ⟨n, d⟩ := nd
    obtain ⟨hc, v, hm, hd⟩ := (hi n d).1 rfl
    simp only [(cfLookup_iff hw.1 n v).2 hm]
    obtain ⟨-, as, ha⟩ := hw.2 n v hm
    have hbe := boundsOf_error (vars := vars) ha axis e
    refine Iff.trans ?_ (hbe.trans ?_)
    · cases boundsOf axis v vars <;> simp
    constructor
    · rintro ⟨h1, h2, h3, h4⟩; exact ⟨h1, h2, n, v, hc, hm, h3, h4⟩
    · rintro ⟨h1, h2, k, v', hc', hm', h3, h4⟩
      have := (hi k _).2 ⟨hc', v', hm', rfl⟩
      simp only [Except.ok.injEq, Option.some.injEq, Prod.mk.injEq] at this
      obtain ⟨rfl, -⟩ := this
      have hv := (cfLookup_iff hw.1 _ v).2 hm
      rw [(cfLookup_iff hw.1 _ v').2 hm'] at hv
      cases hv
      exact ⟨h1, h2, h3, h4⟩

theorem createMap_error {strict : Bool} {vars : Vars} (hw : FileMeta vars) (e : PyErr) :
    createMap strict false vars = .error e ↔ fullEntry strict "axis" "T" .T vars = .error e := by
  have ho : ∀ a, a ≠ .T → ∃ r, finalEntry strict false vars a = .ok r := by
    intro a ha
    unfold finalEntry swapped
    cases hf : fullEntry strict "axis" a.text a vars with
    | error e => exact absurd ((fullEntry_error hw _ _ _ _ _).1 hf).2.1 ha
    | ok r => exact ⟨r, rfl⟩
  obtain ⟨r, hr⟩ := ho .R (by decide)
  obtain ⟨z, hz⟩ := ho .Z (by decide)
  obtain ⟨y, hy⟩ := ho .Y (by decide)
  obtain ⟨x, hx⟩ := ho .X (by decide)
  unfold createMap
  rw [hr, hz, hy, hx]
  have : finalEntry strict false vars .T = fullEntry strict "axis" "T" .T vars := by
    unfold finalEntry swapped
    change (match fullEntry strict "axis" "T" .T vars with | .error e => _ | .ok e => _) = _
    cases fullEntry strict "axis" "T" .T vars <;> rfl
  rw [this]
  cases fullEntry strict "axis" "T" .T vars <;> simp

theorem fileMeta_perm {vars vars' : Vars} (hw : FileMeta vars) (hp : vars.Perm vars') : FileMeta vars' :=
  ⟨(hp.map Prod.fst).nodup_iff.1 hw.1, fun k v h => hw.2 k v (hp.mem_iff.2 h)⟩

theorem lookup_perm {vars vars' : Vars} (hw : FileMeta vars) (hp : vars.Perm vars') (k : String) : vars'.lookup k = vars.lookup k := by
  apply Option.ext
  intro v
  rw [cfLookup_iff (fileMeta_perm hw hp).1, cfLookup_iff hw.1, hp.mem_iff]

theorem isCoord_perm {vars vars' : Vars} (hp : vars.Perm vars') (strict : Bool) (attr value : String) (axis : Axis) (k : String) :
    IsCoord strict attr value axis vars' k ↔ IsCoord strict attr value axis vars k := by
  simp only [IsCoord, OnlyOne, SaysAxis, HasUsualName, hp.mem_iff]

theorem axisEntry_perm {vars vars' : Vars} (hw : FileMeta vars) (hp : vars.Perm vars') (strict : Bool) (attr value : String)
    (axis : Axis) : axisEntry strict attr value axis vars' = axisEntry strict attr value axis vars := by
  obtain ⟨r, hr⟩ := axisEntry_total hw strict attr value axis
  obtain ⟨r', hr'⟩ := axisEntry_total (fileMeta_perm hw hp) strict attr value axis
  have : ∀ kd : String × List String, r' = some kd ↔ r = some kd := by
    rintro ⟨k, d⟩
    have h1 := axisEntry_iff hw strict attr value axis k d
    have h2 := axisEntry_iff (fileMeta_perm hw hp) strict attr value axis k d
    rw [hr] at h1
    rw [hr'] at h2
    simp only [Except.ok.injEq] at h1 h2
    rw [h1, h2, isCoord_perm hp]
    simp only [hp.mem_iff]
  rw [hr, hr', Option.ext this]

theorem fullEntry_perm {vars vars' : Vars} (hw : FileMeta vars) (hp : vars.Perm vars') (strict : Bool) (attr value : String)
    (axis : Axis) : fullEntry strict attr value axis vars' = fullEntry strict attr value axis vars := by
  unfold fullEntry boundsOf
  simp only [axisEntry_perm hw hp, lookup_perm hw hp]

theorem distinct_mem (l : List String) (a : String) : a ∈ distinct l ↔ a ∈ l := by
  induction l with
  | nil => simp [distinct]
  | cons b l ih =>
    unfold distinct
    split
    · rename_i h
      rw [ih, List.mem_cons]
      constructor
      · exact Or.inr
      · rintro (rfl | h')
        · simpa using h
        · exact h'
    · simp [ih]

theorem attrOf_iff (v : VarMeta) (attr value : String) : attrOf v attr = some value ↔ HasAttr v attr value := by
  unfold attrOf HasAttr
  cases v.attrs <;> simp

theorem updateDims_congr (vars : Vars) {m m' : Map} {a : Axis} (h : m a = m' a) : updateDims vars m a = updateDims vars m' a := by
  unfold updateDims
  rw [h]

/-- A usual file: time and longitude say what they are, latitude has a usual name; there is a height without dimensions. -/
def usualFile : Vars :=
  [("time", ⟨"time", ["time"], some [("axis", "T"), ("climatology", "time_bnds")]⟩),
   ("time_bnds", ⟨"time_bnds", ["time", "nv"], some []⟩),
   ("lon", ⟨"lon", ["lon"], some [("axis", "X"), ("bounds", "lon_bnds")]⟩),
   ("lat", ⟨"lat", ["lat"], some [("bounds", "lat_bnds")]⟩),
   ("lon_bnds", ⟨"lon_bnds", ["lon", "nv"], some []⟩),
   ("mask", ⟨"mask", ["lat", "lon"], some [("ocgis_role", "spatial_mask")]⟩),
   ("tas", ⟨"tas", ["time", "lat", "lon"], some []⟩)]

theorem usualFile_meta : FileMeta usualFile := by
  refine ⟨by decide, ?_⟩
  intro k v h
  simp only [usualFile, List.mem_cons, Prod.mk.injEq, List.not_mem_nil, or_false] at h
  rcases h with ⟨rfl, rfl⟩ | ⟨rfl, rfl⟩ | ⟨rfl, rfl⟩ | ⟨rfl, rfl⟩ | ⟨rfl, rfl⟩ | ⟨rfl, rfl⟩ | ⟨rfl, rfl⟩ <;> exact ⟨rfl, _, rfl⟩

end Ocgis.Props
