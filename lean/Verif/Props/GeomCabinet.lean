import Verif.Proofs.GeomCabinet

namespace Ocgis.Props
open Ocgis Ocgis.Records Ocgis.Cabinet Ocgis.Spec

/-- Iterating over a file yields, in file order, the records of exactly the features with a selected identifier, or of exactly
those that satisfy the condition; with nothing selected it raises an error.  Missing: identifiers and a condition together, an
empty list of identifiers, and slices (`C73_slice_partial`). -/
theorem C73_select_partial {G : Type} (src : Source G) (q : Query G) (hg : GoodSource src q) (hslc : q.slc = none)
    (hone : q.selectUid = none ∨ q.sqlWhere = none)
    (hids : ∀ ids, q.selectUid = some ids → ids ≠ [] ∧ idName q ∈ src.fields.map Prod.fst) :
    Yields (idName q) (src.features.filter (meets q)) (iterGeoms src q) := by
  refine iterGeoms_selected src q hg _ (fun f hf => (List.mem_filter.1 hf).1) ?_
  unfold selected getFeatures
  rw [hslc]
  simp only
  cases hw : q.sqlWhere with
  | some p =>
    have hs : q.selectUid = none := by
      rcases hone with h | h
      · exact h
      · rw [hw] at h; cases h
    simp only
    congr 1
    apply List.filter_congr
    intro f _
    simp [meets, hs, hw]
  | none =>
    cases hs : q.selectUid with
    | none =>
      simp only
      congr 1
      symm
      rw [List.filter_eq_self]
      intro f _
      simp [meets, hs, hw]
    | some ids =>
      obtain ⟨hne, hin⟩ := hids ids hs
      have hsome : (src.fields.lookup (q.uid.getD defaultUid)).isNone = false := by
        cases hl : src.fields.lookup (q.uid.getD defaultUid) with
        | none => exact absurd hin ((lookup_none _ _).1 hl)
        | some _ => rfl
      simp only [if_neg hne, hsome]
      rw [if_neg (by simp)]
      congr 1
      apply List.filter_congr
      intro f hf
      rw [show q.uid.getD defaultUid = idName q from rfl, sqlIn_idOf src q hg f hf hin]
      simp [meets, hs, hw]

/-- Non-vacuity: three features, two of them selected. -/
example : (iterGeoms (G := Nat) ⟨[("UGID", .int), ("N", .str 3)],
      [⟨0, 7, [("UGID", .int 5), ("N", .str "a")]⟩, ⟨1, 8, [("UGID", .int 3), ("N", .str "b")]⟩,
       ⟨2, 9, [("UGID", .int 4), ("N", .str "c")]⟩], false⟩ { selectUid := some [4, 5] }).toOption.map
      (fun p => (p.1, p.2.map Rec.geom)) = some ("UGID", [7, 9]) := by decide

/-- Iterating with a slice yields the records of exactly the features at those positions, as Python and NumPy count them.
Missing: negative positions, a stop before the start, a slice without a start, boolean arrays, positions out of order, numbered
positions in a file geodatabase or in a file that is not numbered from zero. -/
theorem C73_slice_partial {G : Type} (src : Source G) (q : Query G) (hg : GoodSource src q) (idx : RawIndex)
    (hslc : q.slc = some idx) (hno : q.selectUid = none ∧ q.sqlWhere = none) (hidx : FileIndex src idx) :
    ∃ wanted, pick idx src.features = .ok wanted ∧ Yields (idName q) wanted (iterGeoms src q) := by
  have hsel : ∀ s wanted, formatSlice idx = .ok s → sliceFeatures src s = .ok wanted → selected src q = .ok wanted := by
    intro s wanted h1 h2
    unfold selected
    rw [hslc, hno.1, hno.2]
    simp only [Option.isSome_none, Bool.or_self, Bool.false_eq_true, if_false, h1]
    exact h2
  -- a slice with an ordinary start and stop
  have hslice : ∀ (s : PySlice) a, s.start = some a → 0 ≤ a → (∀ b, s.stop = some b → a ≤ b) →
      sliceFeatures src (.slice s) = .ok (s.get src.features) := by
    intro s a h1 h2 h3
    obtain ⟨st, sp⟩ := s
    simp only at h1 h3
    subst h1
    simp only [sliceFeatures]
    rw [walkFrom_pySlice a sp src.features h2 h3]
  have hsub : ∀ s : PySlice, ∀ f ∈ s.get src.features, f ∈ src.features := fun s f hf =>
    List.mem_of_mem_drop (List.mem_of_mem_take hf)
  cases idx with
  | none => exact absurd hidx id
  | bools bs => exact absurd hidx id
  | slice s =>
    obtain ⟨a, h1, h2, h3⟩ := hidx
    exact ⟨_, rfl, iterGeoms_selected src q hg _ (hsub s) (hsel _ _ rfl (hslice s a h1 h2 h3))⟩
  | int i =>
    obtain ⟨h0, h1⟩ := hidx
    have hp : pick (.int i) src.features = .ok (PySlice.get ⟨some i, some (i + 1)⟩ src.features) := by
      simp only [pick]
      rw [PySlice.get_inside src.features i (i + 1) h0 (by omega) (by omega),
        takeInts_ok _ _ (by intro j hj; simp at hj; omega),
        ← filterMap_range_slice src.features i (i + 1) (by omega) (by omega), intRange_cons (by omega), intRange_empty (by omega)]
    refine ⟨_, hp, iterGeoms_selected src q hg _ (hsub _) (hsel _ _ rfl (hslice _ i rfl h0 ?_))⟩
    intro b hb
    injection hb with hb
    omega
  | ints xs =>
    obtain ⟨hr, h⟩ := hidx
    rcases h with ⟨hgdb, hnum, hj⟩ | ⟨a, b, hab, rfl⟩
    · have hp : pick (.ints xs) src.features = .ok (xs.filterMap fun i => src.features[i.toNat]?) := takeInts_ok _ _ hr
      refine ⟨_, hp, iterGeoms_selected src q hg _ ?_ (hsel _ _ (optimalSlice_jump xs hj) ?_)⟩
      · intro f hf
        obtain ⟨i, -, hi⟩ := List.mem_filterMap.1 hf
        exact List.mem_of_getElem? hi
      · simp only [sliceFeatures, hgdb]
        rw [if_neg (by simp), getByFid_ints src hnum xs hr, takeInts_ok _ _ hr]
    · have ha := hr a (mem_intRange.2 ⟨by omega, hab⟩)
      have hb := hr (b - 1) (mem_intRange.2 ⟨by omega, by omega⟩)
      have hp : pick (.ints (intRange a b)) src.features = .ok (PySlice.get ⟨some a, some b⟩ src.features) := by
        simp only [pick]
        rw [PySlice.get_inside src.features a b (by omega) (by omega) (by omega), takeInts_ok _ _ hr,
          filterMap_range_slice src.features a b (by omega) (by omega)]
      refine ⟨_, hp, iterGeoms_selected src q hg _ (hsub _) (hsel _ _ (optimalSlice_run a b hab) (hslice _ a rfl ha.1 ?_))⟩
      intro c hc
      injection hc with hc
      omega

example : yielded fourFeatures { slc := some (.ints [0, 2, 3]) } = some [(7, some (.int 0)), (9, some (.int 2)), (10, some (.int 3))] ∧
    yielded fourFeatures { slc := some (.slice ⟨some 1, some 3⟩) } = some [(8, some (.int 1)), (9, some (.int 2))] ∧
    yielded fourFeatures { slc := some (.int 3), uid := some "A" } = some [(10, some (.int 4))] := by decide

/-- As fields: one per selected feature, with its geometry, its identifier and its attribute values, provided these are of the
kinds the file declares.  Missing: null attributes (`C72_null_counterexample`). -/
theorem C73_fields_partial {G : Type} (src : Source G) (q : Query G) (hg : GoodSource src q) (wanted : List (Feature G))
    (hy : Yields (idName q) wanted (iterGeoms src q)) (hne : wanted ≠ [])
    (hfit : ∀ f ∈ wanted, ∀ k v, (k, v) ∈ f.props → k ≠ idName q → ∃ t, (k, t) ∈ src.fields ∧ FitsType t v) :
    ∃ fs, iterFields src q = .ok fs ∧ fs.length = wanted.length ∧
      ∀ (i : Nat) f fld, wanted[i]? = some f → fs[i]? = some fld →
        fld.geoms = [f.geom] ∧ fld.uids = [idOf (idName q) f] ∧
        ∀ k v, (k, v) ∈ f.props → k ≠ idName q → ∃ c, fld.columns.lookup k = some c ∧ c.get 0 = some (.value v) := by
  obtain ⟨rs, hrs, hlen, hrec⟩ := hy.2 hne
  have hone : ∀ f ∈ wanted, ∀ r, RecordOf (idName q) f r →
      ∃ fld, fromRecords (some src.fields) (idName q) [r] = .ok fld ∧
        fld.geoms = [f.geom] ∧ fld.uids = [idOf (idName q) f] ∧
        ∀ k v, (k, v) ∈ f.props → k ≠ idName q → ∃ c, fld.columns.lookup k = some c ∧ c.get 0 = some (.value v) := by
    intro f hf r hr
    have hd : Dictionaries [r] := by intro x hx; simp at hx; subst hx; exact hr.once
    have hl : r.props.lookup (idName q) = some (.int (idOf (idName q) f)) :=
      (mem_lookup _ hr.once _ _).2 ((hr.id _).2 rfl)
    have hcol : ∀ x ∈ [r], ∀ k v, (k, v) ∈ x.props → k ≠ idName q →
        ∃ c, (newColumns (idName q) 1 src.fields).lookup k = some c ∧ FitsType c.type v := by
      intro x hx k v hv hk
      simp only [List.mem_singleton] at hx
      subst hx
      obtain ⟨t, ht, hft⟩ := hfit f hf k v ((hr.props k v hk).1 hv) hk
      refine ⟨⟨t, List.replicate 1 .fill, none⟩, ?_, hft⟩
      rw [newColumns_lookup _ _ _ _ hk, (mem_lookup _ hg.nodup _ _).2 ht]
      rfl
    obtain ⟨cols, hcols⟩ := setRecords_ok (idName q) [r] 0 _ hcol
    have hfld : fromRecords (some src.fields) (idName q) [r] = .ok ⟨[r.geom], [idOf (idName q) f], cols⟩ := by
      unfold fromRecords
      simp only [recUids, recUid, hl, Option.isSome_some, toInt, List.length_singleton]
      simp only [hcols]
      rfl
    refine ⟨_, hfld, by rw [hr.geom], rfl, ?_⟩
    intro k v hv hk
    obtain ⟨c0, hc0, hft⟩ := hcol r (by simp) k v ((hr.props k v hk).2 hv) hk
    have hsp := (setRecords_spec (idName q) [r] hd 0 _ _ hcols).2 k c0 hk hc0 (by
      rw [newColumns_lookup _ _ _ _ hk] at hc0
      cases hl : src.fields.lookup k with
      | none => rw [hl] at hc0; cases hc0
      | some t =>
        rw [hl] at hc0
        simp only [Option.map_some, Option.some.injEq] at hc0
        subst hc0
        intro m hm
        cases hm)
    obtain ⟨c, hc, ht, -⟩ := hsp
    exact ⟨c, hc, (C72_values_partial _ _ _ _ hfld hd).2 0 r k v c rfl ((hr.props k v hk).2 hv) hk hc (by rw [ht]; exact hft)⟩
  have hall : ∀ (ws : List (Feature G)) (rs : List (Rec G)), ws.length = rs.length → (∀ f ∈ ws, f ∈ wanted) →
      (∀ (i : Nat) f r, ws[i]? = some f → rs[i]? = some r → RecordOf (idName q) f r) →
      ∃ fs, rs.mapM (fun r => fromRecords (some src.fields) (idName q) [r]) = .ok fs := by
    intro ws
    induction ws with
    | nil =>
      intro rs hl _ _
      cases rs with
      | nil => exact ⟨[], rfl⟩
      | cons _ _ => cases hl
    | cons w ws ih =>
      intro rs hl hw hr
      cases rs with
      | nil => cases hl
      | cons r rs =>
        obtain ⟨fld, hfld, -⟩ := hone w (hw w List.mem_cons_self) r (hr 0 w r rfl rfl)
        obtain ⟨fs, hfs⟩ := ih rs (by simpa using hl) (fun x hx => hw x (List.mem_cons_of_mem _ hx))
          (fun i f x hi hx => hr (i + 1) f x hi hx)
        exact ⟨fld :: fs, by rw [resMapM_cons, hfld, hfs]⟩
  obtain ⟨fs, hfs⟩ := hall wanted rs hlen.symm (fun _ h => h) hrec
  have hok := (resMapM_ok_iff _ _ _).1 hfs
  refine ⟨fs, by unfold iterFields; rw [hrs]; exact hfs, by rw [← hok.1, hlen], ?_⟩
  intro i f fld hf hfl
  have hi : i < rs.length := by rw [hlen]; exact (List.getElem?_eq_some_iff.1 hf).1
  have hr := List.getElem?_eq_getElem hi
  obtain ⟨fld', h1, h2⟩ := hone f (List.mem_of_getElem? hf) rs[i] (hrec i f _ hf hr)
  rw [hok.2 i _ fld hr hfl] at h1
  injection h1 with h1
  subst h1
  exact h2

/-- With `union`: one geometry covering exactly what the selected features cover, with identifier one. -/
theorem C73_union {G : Type} (union : G → G → G) (member : G → Nat → Prop)
    (hu : ∀ a b x, member (union a b) x ↔ member a x ∨ member b x) (src : Source G) (q : Query G) (wanted : List (Feature G))
    (hy : Yields (idName q) wanted (iterGeoms src q)) (hne : wanted ≠ []) :
    ∃ g, iterUnion union src q = .ok ⟨[g], [1], []⟩ ∧ ∀ x, member g x ↔ ∃ f ∈ wanted, member f.geom x := by
  obtain ⟨rs, hrs, hlen, hrec⟩ := hy.2 hne
  cases rs with
  | nil => cases wanted with
    | nil => exact absurd rfl hne
    | cons _ _ => cases hlen
  | cons r rs =>
    obtain ⟨g, hg, hm⟩ := C72_union union member hu r rs
    refine ⟨g, by unfold iterUnion; rw [hrs]; exact hg, ?_⟩
    intro x
    rw [hm]
    constructor
    · rintro ⟨y, hy, hx⟩
      obtain ⟨i, hi⟩ := List.getElem?_of_mem hy
      have hlt : i < wanted.length := by rw [← hlen]; exact (List.getElem?_eq_some_iff.1 hi).1
      have hw := List.getElem?_eq_getElem hlt
      exact ⟨_, List.mem_of_getElem? hw, by rw [← (hrec i _ y hw hi).geom]; exact hx⟩
    · rintro ⟨f, hf, hx⟩
      obtain ⟨i, hi⟩ := List.getElem?_of_mem hf
      have hlt : i < (r :: rs).length := by rw [hlen]; exact (List.getElem?_eq_some_iff.1 hi).1
      have hr := List.getElem?_eq_getElem hlt
      exact ⟨_, List.mem_of_getElem? hr, by rw [(hrec i f _ hi hr).geom]; exact hx⟩

/-- The features read for some identifiers are exactly those whose identifier attribute is a number equal to one of them. -/
theorem C73_equal_numbers {G : Type} (src : Source G) (q : Query G) (ids : List Int) (hs : q.selectUid = some ids)
    (hw : q.sqlWhere = none) (fs : List (Feature G)) (h : getFeatures src q = .ok fs) (f : Feature G) :
    f ∈ fs ↔ f ∈ src.features ∧ ∃ i ∈ ids, f.props.lookup (idName q) = some (.int i) ∨
      f.props.lookup (idName q) = some (.float (i : Rat)) := by
  unfold getFeatures at h
  rw [hw, hs] at h
  simp only at h
  split at h
  · cases h
  · split at h
    · cases h
    · injection h with h
      subst h
      rw [List.mem_filter, show q.uid.getD defaultUid = idName q from rfl]
      refine and_congr_right fun _ => ?_
      cases hl : f.props.lookup (idName q) with
      | none => simp [sqlIn]
      | some v =>
        cases v with
        | float x =>
          simp only [sqlIn, List.any_eq_true, decide_eq_true_eq, Option.some.injEq, Val.float.injEq, reduceCtorEq, false_or]
          exact ⟨fun ⟨i, h1, h2⟩ => ⟨i, h1, h2.symm⟩, fun ⟨i, h1, h2⟩ => ⟨i, h1, h2.symm⟩⟩
        | int j => simp [sqlIn]
        | str s => simp [sqlIn]
        | null => simp [sqlIn]

example : (getFeatures (G := Nat) ⟨[("UGID", .float)], [⟨0, 7, [("UGID", .float 5)]⟩, ⟨1, 8, [("UGID", .float (7/2))]⟩], false⟩
    { selectUid := some [5, 3] }).toOption.map (fun fs => fs.map Feature.geom) = some [7] := by decide +kernel

/-- A slice cannot be combined with identifiers or a condition. -/
theorem C73_combination {G : Type} (src : Source G) (q : Query G) (hs : q.slc.isSome)
    (h : q.selectUid.isSome ∨ q.sqlWhere.isSome) : iterGeoms src q = .error .valueError := by
  unfold iterGeoms selected
  cases hq : q.slc with
  | none => rw [hq] at hs; cases hs
  | some idx =>
    have : (q.selectUid.isSome || q.sqlWhere.isSome) = true := by simpa using h
    simp only [this, if_true]

example : iterGeoms fourFeatures { slc := some (.int 1), selectUid := some [2] } = .error .valueError := rfl

/-- With `union` there is always one geometry, and `len` says so. -/
theorem C73_union_len {G : Type} (union : G → G → G) (src : Source G) (q : Query G) (f : Fld G)
    (h : iterUnion union src q = .ok f) : iterLen src q true = .ok f.geoms.length := by
  unfold iterUnion at h
  split at h
  · cases h
  · rename_i rs hrs
    cases rs with
    | nil => cases h
    | cons r rs => injection h with h; subst h; rfl

/-- `len` of an iterator is the number of records iterating yields, if every selected identifier is in the file exactly once
and asked for once.  Missing: identifiers that are absent or asked for twice, identifiers together with a condition, slices. -/
theorem C73_len_partial {G : Type} (src : Source G) (q : Query G) (hg : GoodSource src q) (hslc : q.slc = none)
    (hone : q.selectUid = none ∨ q.sqlWhere = none)
    (hids : ∀ ids, q.selectUid = some ids → ids ≠ [] ∧ idName q ∈ src.fields.map Prod.fst ∧ ids.Nodup ∧
      (src.features.map (idOf (idName q))).Nodup ∧ ∀ i ∈ ids, ∃ f ∈ src.features, idOf (idName q) f = i)
    (name : String) (rs : List (Rec G)) (h : iterGeoms src q = .ok (name, rs)) :
    iterLen src q false = .ok rs.length := by
  have hy := C73_select_partial src q hg hslc hone (fun ids hi => ⟨(hids ids hi).1, (hids ids hi).2.1⟩)
  have hlen : rs.length = (src.features.filter (meets q)).length := by
    by_cases he : src.features.filter (meets q) = []
    · have := hy.1 he
      rw [h] at this
      cases this
    · obtain ⟨rs', h1, h2, -⟩ := hy.2 he
      rw [h] at h1
      injection h1 with h1
      injection h1 with h1 h3
      rw [h3, h2]
  rw [hlen]
  unfold iterLen
  rw [hslc]
  simp only [Bool.false_eq_true, if_false]
  cases hs : q.selectUid with
  | none =>
    simp only
    cases hw : q.sqlWhere with
    | none =>
      have : meets q = fun _ => true := by funext f; simp [meets, hs, hw]
      unfold getFeatures
      rw [hw, hs, this]
      simp
    | some p =>
      have : meets q = p := by funext f; simp [meets, hs, hw]
      unfold getFeatures
      rw [hw, this]
  | some ids =>
    simp only
    obtain ⟨h1, h2, h3, h4, h5⟩ := hids ids hs
    have hw : q.sqlWhere = none := by
      rcases hone with h | h
      · rw [hs] at h; cases h
      · exact h
    have hperm : ids.Perm ((src.features.filter (meets q)).map (idOf (idName q))) := by
      rw [List.perm_ext_iff_of_nodup h3 (List.Nodup.sublist (List.Sublist.map _ List.filter_sublist) h4)]
      intro a
      rw [List.mem_map]
      constructor
      · intro ha
        obtain ⟨f, hf, rfl⟩ := h5 a ha
        exact ⟨f, List.mem_filter.2 ⟨hf, by simp [meets, hs, hw, ha]⟩, rfl⟩
      · rintro ⟨f, hf, rfl⟩
        have := (List.mem_filter.1 hf).2
        simpa [meets, hs, hw] using this
    congr 1
    rw [hperm.length_eq, List.length_map]

example : iterLen (G := Nat) ⟨[("UGID", .int)], [⟨0, 7, [("UGID", .int 5)]⟩, ⟨1, 8, [("UGID", .int 3)]⟩], false⟩
    { selectUid := some [3] } false = .ok 1 := by decide

/-- The keys listed are exactly the keys a path is found for, and the path found is that of a file with that key. -/
theorem C73_keys (fs : List FileEntry) (k : String) :
    (k ∈ keys fs ↔ ∃ p, shpPath fs k = .ok p) ∧
    ∀ p, shpPath fs k = .ok p → ∃ f ∈ fs, f.shp = true ∧ f.stem = k ∧ f.path = p := by
  have hfound : ∀ p, shpPath fs k = .ok p → ∃ f ∈ fs, f.shp = true ∧ f.stem = k ∧ f.path = p := by
    intro p hp
    unfold shpPath at hp
    split at hp
    · rename_i f hf
      injection hp with hp
      have := List.find?_some hf
      simp only [Bool.and_eq_true, decide_eq_true_eq] at this
      exact ⟨f, List.mem_of_find?_eq_some hf, this.1, this.2, hp⟩
    · cases hp
  refine ⟨⟨?_, ?_⟩, hfound⟩
  · intro hk
    unfold keys at hk
    obtain ⟨f, hf, rfl⟩ := List.mem_map.1 hk
    obtain ⟨hm, hs⟩ := List.mem_filter.1 hf
    unfold shpPath
    cases hfi : fs.find? fun g => g.shp && decide (g.stem = f.stem) with
    | some g => exact ⟨g.path, rfl⟩
    | none =>
      have := List.find?_eq_none.1 hfi f hm
      simp [hs] at this
  · rintro ⟨p, hp⟩
    obtain ⟨f, hf, h1, h2, -⟩ := hfound p hp
    exact List.mem_map.2 ⟨f, List.mem_filter.2 ⟨hf, h1⟩, h2⟩

example : keys [⟨"/a/x.shp", "x", true⟩, ⟨"/a/x.dbf", "x", false⟩] = ["x"] ∧
    shpPath [⟨"/a/x.dbf", "x", false⟩, ⟨"/a/x.shp", "x", true⟩] "x" = .ok "/a/x.shp" := by decide

/-- A key takes precedence over a path, and nothing that does not exist is opened. -/
theorem C73_path (fs : List FileEntry) (onDisk : String → Bool) (key path : Option String) (p : String)
    (h : resolvePath fs onDisk key path = .ok p) :
    onDisk p = true ∧
    (∀ k, key = some k → ∃ f ∈ fs, f.shp = true ∧ f.stem = k ∧ f.path = p) ∧ (key = none → path = some p) := by
  unfold resolvePath at h
  simp only at h
  split at h
  · cases h
  · rename_i x hx
    split at h
    · rename_i hd
      injection h with h
      subst h
      refine ⟨hd, ?_, ?_⟩
      · rintro k rfl
        exact (C73_keys fs k).2 x hx
      · rintro rfl
        cases hp : path with
        | none => rw [hp] at hx; cases hx
        | some y => rw [hp] at hx; injection hx with hx; rw [hx]
    · cases h

example : resolvePath [⟨"/a/x.shp", "x", true⟩] (fun _ => true) (some "x") (some "/b.shp") = .ok "/a/x.shp" := by decide

/-- False in general: with identifiers and a condition the identifiers are ignored, while `len` ignores the condition. -/
theorem C73_both_counterexample :
    yielded fourFeatures { selectUid := some [2], sqlWhere := some (fun f => decide (f.fid ≠ 1)), uid := some "A" } =
      some [(7, some (.int 1)), (9, some (.int 3)), (10, some (.int 4))] ∧
    iterLen fourFeatures { selectUid := some [2], sqlWhere := some (fun f => decide (f.fid ≠ 1)), uid := some "A" } false = .ok 1 := by
  decide

/-- False in general: `len` counts identifiers that are not in the file, and is not defined for a slice. -/
theorem C73_len_counterexample :
    iterLen fourFeatures { selectUid := some [2, 99], uid := some "A" } false = .ok 2 ∧
    yielded fourFeatures { selectUid := some [2, 99], uid := some "A" } = some [(8, some (.int 2))] ∧
    iterLen fourFeatures { slc := some (.slice ⟨some 0, some 2⟩) } false = .error .typeError := by decide

/-- False in general: negative positions and a stop before the start select what they should not. -/
theorem C73_slice_counterexample :
    yielded fourFeatures { slc := some (.int (-2)) } =
      some [(7, some (.int 0)), (8, some (.int 1)), (9, some (.int 2)), (10, some (.int 3))] ∧
    iterGeoms fourFeatures { slc := some (.int (-1)) } = .error .valueError ∧
    yielded fourFeatures { slc := some (.slice ⟨some (-1), none⟩) } =
      some [(7, some (.int 0)), (8, some (.int 1)), (9, some (.int 2)), (10, some (.int 3))] ∧
    yielded fourFeatures { slc := some (.slice ⟨some 2, some 1⟩) } = some [(9, some (.int 2)), (10, some (.int 3))] ∧
    iterGeoms fourFeatures { slc := some (.slice ⟨none, some 2⟩) } = .error .typeError :=
  ⟨by decide, rfl, by decide, by decide, rfl⟩

/-- False in general: a boolean array selects the first two features over and over, and positions out of order select
everything between. -/
theorem C73_array_counterexample :
    yielded fourFeatures { slc := some (.bools [false, false, true, true]) } =
      some [(7, some (.int 0)), (7, some (.int 0)), (8, some (.int 1)), (8, some (.int 1))] ∧
    yielded fourFeatures { slc := some (.ints [2, 0]) } =
      some [(7, some (.int 0)), (8, some (.int 1)), (9, some (.int 2))] ∧
    iterGeoms { fourFeatures with geodatabase := true } { slc := some (.ints [0, 2]) } = .error .attributeError :=
  ⟨by decide, by decide, rfl⟩

/-- False as documented: a two-element sequence is not a start and a stop but two positions. -/
theorem C73_start_stop_counterexample :
    yielded fourFeatures { slc := some (.ints [0, 3]) } = some [(7, some (.int 0)), (10, some (.int 3))] := by decide

/-- False in general: of two files with the same name in different directories the second is listed but never found. -/
theorem C73_same_key_counterexample :
    keys [⟨"/a/x.shp", "x", true⟩, ⟨"/b/x.shp", "x", true⟩] = ["x", "x"] ∧
    shpPath [⟨"/a/x.shp", "x", true⟩, ⟨"/b/x.shp", "x", true⟩] "x" = .ok "/a/x.shp" := by decide

end Ocgis.Props
