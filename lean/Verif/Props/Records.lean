import Verif.Proofs.Records

namespace Ocgis.Props
open Ocgis Ocgis.Records Ocgis.Spec

/-- Whatever the records, if they are accepted every property with a value that fits its column is read back unchanged, at the
position of its record, and every record's geometry is there in order.  Missing: values of another kind than the column's, and
properties that are null or absent (see the counterexamples). -/
theorem C72_values_partial {G : Type} (schema : Option (List (String × Ty))) (uid : String) (records : List (Rec G))
    (f : Fld G) (h : fromRecords schema uid records = .ok f) (hd : Dictionaries records) :
    f.geoms = records.map Rec.geom ∧
    ∀ i r k v c, records[i]? = some r → (k, v) ∈ r.props → k ≠ uid → f.columns.lookup k = some c → FitsType c.type v →
      c.get i = some (.value v) := by
  obtain ⟨r0, rs, s, hr, -, hg, -, hs⟩ := fromRecords_parts schema uid records f h
  refine ⟨hg, ?_⟩
  intro i r k v c hi hv hk hc hf
  obtain ⟨hn, hsp⟩ := setRecords_spec uid records hd 0 _ _ hs
  have hdr := hd r (List.mem_of_getElem? hi)
  cases hl : (newColumns uid records.length s).lookup k with
  | none =>
    rw [lookup_none, ← hn, ← lookup_none, hc] at hl
    cases hl
  | some c0 =>
    have hc0 : c0.cells = List.replicate records.length .fill ∧ NoMask c0 := by
      rw [newColumns_lookup uid _ s k hk] at hl
      cases hs' : s.lookup k with
      | none => rw [hs'] at hl; cases hl
      | some t =>
        rw [hs'] at hl
        simp only [Option.map_some, Option.some.injEq] at hl
        subst hl
        exact ⟨rfl, fun m hm => by cases hm⟩
    obtain ⟨c', hc', ht, hm, -, -, hcell⟩ := hsp k c0 hk hl hc0.2
    rw [hc] at hc'
    injection hc' with hc'
    subst hc'
    have hlt : i < records.length := by
      rw [List.getElem?_eq_some_iff] at hi; exact hi.1
    have hnn : v ≠ .null := by rintro rfl; cases hct : c.type <;> rw [hct] at hf <;> exact hf
    obtain ⟨w, hw, hcw⟩ := (hcell i r hi (by rw [hc0.1]; simpa using hlt)).2 v ((mem_lookup _ hdr k v).2 hv) hnn
    rw [← ht, coerce_fits _ _ hf] at hw
    injection hw with hw
    subst hw
    rw [noMask_get c hm]
    simpa using hcw

/-- Records with the same properties of the same kinds are accepted, and the field holds each record's geometry, identifier and
property values at its position; without an identifier property the identifiers count from one.  Missing: records that differ
in their properties or have null values. -/
theorem C72_records_partial {G : Type} (uid : String) (first : Rec G) (rest : List (Rec G))
    (hh : Homogeneous uid first (first :: rest)) :
    ∃ f, fromRecords none uid (first :: rest) = .ok f ∧
      f.geoms = (first :: rest).map Rec.geom ∧
      f.columns.map Prod.fst = (first.props.map Prod.fst).filter (fun k => decide (k ≠ uid)) ∧
      (∀ (i : Nat) (r : Rec G), (first :: rest)[i]? = some r →
        (∀ j : Int, (uid, Val.int j) ∈ r.props → f.uids[i]? = some j) ∧
        (uid ∉ first.props.map Prod.fst → f.uids[i]? = some ((i : Int) + 1)) ∧
        (∀ k v, (k, v) ∈ r.props → k ≠ uid → ∃ c, f.columns.lookup k = some c ∧ c.get i = some (.value v))) := by
  have hsch : ∀ k, (firstSchema first).lookup k = (first.props.lookup k).map fionaType := fun k =>
    lookup_map_snd first.props fionaType k
  have hfirst := hh.dicts first List.mem_cons_self
  have hcol : ∀ r ∈ first :: rest, ∀ k v, (k, v) ∈ r.props → k ≠ uid →
      ∃ c, (newColumns uid (first :: rest).length (firstSchema first)).lookup k = some c ∧ FitsType c.type v := by
    intro r hr k v hv hk
    have hkm : k ∈ first.props.map Prod.fst := by
      rw [← hh.names r hr]; exact List.mem_map.2 ⟨_, hv, rfl⟩
    obtain ⟨⟨k', v0⟩, hm, rfl⟩ := List.mem_map.1 hkm
    refine ⟨⟨fionaType v0, List.replicate (first :: rest).length .fill, none⟩, ?_, fits_fionaType _ _ (hh.kinds r hr _ v0 v hm hv)⟩
    rw [newColumns_lookup _ _ _ _ hk, hsch, (mem_lookup _ hfirst _ v0).2 hm]
    rfl
  obtain ⟨cols, hcols⟩ := setRecords_ok uid (first :: rest) 0 _ hcol
  -- the identifiers
  have huid : ∃ is, recUids uid ((first.props.lookup uid).isSome) 1 (first :: rest) = .ok is ∧
      (∀ (i : Nat) (r : Rec G), (first :: rest)[i]? = some r → (∀ j : Int, (uid, Val.int j) ∈ r.props → is[i]? = some j) ∧
        (uid ∉ first.props.map Prod.fst → is[i]? = some ((i : Int) + 1))) := by
    by_cases hu : uid ∈ first.props.map Prod.fst
    · have hsome : (first.props.lookup uid).isSome = true := by
        cases hl : first.props.lookup uid with
        | none => exact absurd hu ((lookup_none _ _).1 hl)
        | some _ => rfl
      obtain ⟨is, h1, h2, h3⟩ := recUids_given uid 1 (first :: rest) (by
        intro r hr
        have : uid ∈ r.props.map Prod.fst := by rw [hh.names r hr]; exact hu
        obtain ⟨⟨u, v⟩, hm, rfl⟩ := List.mem_map.1 this
        obtain ⟨i, rfl⟩ := hh.ids r hr v hm
        exact ⟨i, (mem_lookup _ (hh.dicts r hr) _ _).2 hm⟩)
      refine ⟨is, by rw [hsome]; exact h1, ?_⟩
      intro i r hi
      refine ⟨fun j hj => h3 i r j hi ((mem_lookup _ (hh.dicts r (List.mem_of_getElem? hi)) _ _).2 hj), fun h => absurd hu h⟩
    · have hnone : first.props.lookup uid = none := (lookup_none _ _).2 hu
      refine ⟨_, by rw [hnone]; exact recUids_count uid 1 (first :: rest), ?_⟩
      intro i r hi
      have hlt : i < (first :: rest).length := (List.getElem?_eq_some_iff.1 hi).1
      refine ⟨?_, fun _ => ?_⟩
      · intro j hj
        exfalso
        apply hu
        rw [← hh.names r (List.mem_of_getElem? hi)]
        exact List.mem_map.2 ⟨_, hj, rfl⟩
      · rw [List.getElem?_map, List.getElem?_range' (by simpa using hlt)]
        simp; omega
  obtain ⟨is, his, hisp⟩ := huid
  have hf : fromRecords none uid (first :: rest) = .ok ⟨(first :: rest).map Rec.geom, is, cols⟩ := by
    unfold fromRecords
    simp only [his, hcols]
  refine ⟨_, hf, rfl, ?_, ?_⟩
  · rw [(setRecords_spec uid _ hh.dicts 0 _ _ hcols).1]
    unfold newColumns firstSchema
    rw [List.map_map, List.filter_map, List.filter_map, List.map_map]
    rfl
  · intro i r hi
    refine ⟨(hisp i r hi).1, (hisp i r hi).2, ?_⟩
    intro k v hv hk
    have hrm := List.mem_of_getElem? hi
    obtain ⟨c0, hc0, hfit⟩ := hcol r hrm k v hv hk
    have hsp := (setRecords_spec uid _ hh.dicts 0 _ _ hcols).2 k c0 hk hc0 (by
      rw [newColumns_lookup _ _ _ _ hk] at hc0
      cases hl : (firstSchema first).lookup k with
      | none => rw [hl] at hc0; cases hc0
      | some t =>
        rw [hl] at hc0
        simp only [Option.map_some, Option.some.injEq] at hc0
        subst hc0
        intro m hm
        cases hm)
    obtain ⟨c, hc, ht, -⟩ := hsp
    refine ⟨c, hc, (C72_values_partial none uid _ _ hf hh.dicts).2 i r k v c hi hv hk hc (by rw [ht]; exact hfit)⟩

/-- Non-vacuity: two records with an identifier, a number and a name. -/
example : ∃ f, fromRecords (G := Nat) none "UGID"
    [⟨7, [("UGID", .int 12), ("AREA", .float (5/2)), ("NAME", .str "ab")]⟩,
     ⟨8, [("UGID", .int 3), ("AREA", .float 4), ("NAME", .str "abc")]⟩] = .ok f ∧ f.uids = [12, 3] ∧
    f.geoms = [7, 8] := ⟨_, rfl, rfl, rfl⟩

/-- With `union` the result is one geometry, the union of all in order, with identifier one. -/
theorem C72_union {G : Type} (union : G → G → G) (member : G → Nat → Prop)
    (hu : ∀ a b x, member (union a b) x ↔ member a x ∨ member b x) (first : Rec G) (rest : List (Rec G)) :
    ∃ g, fromRecordsUnion union (first :: rest) = .ok ⟨[g], [1], []⟩ ∧
      ∀ x, member g x ↔ ∃ r ∈ first :: rest, member r.geom x := by
  refine ⟨_, rfl, ?_⟩
  intro x
  have key : ∀ (rs : List (Rec G)) (g : G), member (rs.foldl (fun g r => union g r.geom) g) x ↔
      member g x ∨ ∃ r ∈ rs, member r.geom x := by
    intro rs
    induction rs with
    | nil => intro g; simp
    | cons r rs ih => intro g; rw [List.foldl_cons, ih, hu]; simp [or_assoc]
  rw [key]
  simp

example : fromRecordsUnion (G := List Nat) (· ++ ·) [⟨[1], []⟩, ⟨[2], []⟩] = .ok ⟨[[1, 2]], [1], []⟩ := rfl

/-- A number that is not of its column's kind is stored as close as the column allows: a whole number in a column of fractions
exactly, a fraction in a column of whole numbers without its fractional part. -/
theorem C72_numbers {G : Type} (schema : Option (List (String × Ty))) (uid : String) (records : List (Rec G))
    (f : Fld G) (h : fromRecords schema uid records = .ok f) (hd : Dictionaries records)
    (i : Nat) (r : Rec G) (k : String) (c : Column) (hi : records[i]? = some r) (hk : k ≠ uid)
    (hc : f.columns.lookup k = some c) :
    (∀ n, (k, Val.int n) ∈ r.props → c.type = .float → c.get i = some (.value (.float (n : Rat)))) ∧
    (∀ x, (k, Val.float x) ∈ r.props → c.type = .int →
      ∃ n : Int, c.get i = some (.value (.int n)) ∧ (0 ≤ x → (n : Rat) ≤ x ∧ x < n + 1) ∧ (x ≤ 0 → x ≤ n ∧ (n : Rat) < x + 1)) := by
  have key := stored_value schema uid records f h hd i r k c hi hk hc
  constructor
  · intro n hn ht
    obtain ⟨w, hw, hg⟩ := key _ hn (by simp)
    rw [ht] at hw
    injection hw with hw
    rw [hg, ← hw]
  · intro x hx ht
    obtain ⟨w, hw, hg⟩ := key _ hx (by simp)
    rw [ht] at hw
    injection hw with hw
    refine ⟨truncate x, by rw [hg, ← hw], ?_, ?_⟩
    · intro h0
      unfold truncate
      rw [if_pos h0]
      refine ⟨Rat.floor_le _, ?_⟩
      have := @Rat.lt_floor x
      grind
    · intro h0
      unfold truncate
      split
      · rename_i h1
        have : x = 0 := Rat.le_antisymm h0 h1
        subst this
        decide +kernel
      · exact ⟨Rat.le_ceil, Rat.ceil_lt⟩

example : (fromRecords (G := Nat) none "UGID" [⟨0, [("A", .int 1)]⟩, ⟨0, [("A", .float (-5/2))]⟩]).toOption.map
    (fun f => (f.columns.lookup "A").map fun c => c.get 1) = some (some (some (.value (.int (-2))))) := by decide +kernel

/-- False in general: a null property is not masked but reads as the column's fill value; so does a property a later record
lacks. -/
theorem C72_null_counterexample :
    ∃ f, fromRecords (G := Nat) none "UGID" [⟨0, [("A", .int 1), ("B", .int 2)]⟩, ⟨0, [("A", .null)]⟩] = .ok f ∧
      (f.columns.lookup "A").map (fun c => c.get 1) = some (some .fill) ∧
      (f.columns.lookup "B").map (fun c => c.get 1) = some (some .fill) := ⟨_, rfl, by decide, by decide⟩

/-- False in general: the first record decides the columns' types.  A fraction after a whole number loses its fraction, a name
after a null is refused, and a property the first record lacks is refused. -/
theorem C72_first_decides_counterexample :
    (∃ f, fromRecords (G := Nat) none "UGID" [⟨0, [("A", .int 1)]⟩, ⟨0, [("A", .float (5/2))]⟩] = .ok f ∧
      (f.columns.lookup "A").map (fun c => c.get 1) = some (some (.value (.int 2)))) ∧
    (∀ f, fromRecords (G := Nat) none "UGID" [⟨0, [("A", .null)]⟩, ⟨0, [("A", .str "x")]⟩] ≠ .ok f) ∧
    (∀ f, fromRecords (G := Nat) none "UGID" [⟨0, []⟩, ⟨0, [("A", .int 1)]⟩] ≠ .ok f) := by
  refine ⟨⟨_, rfl, by decide +kernel⟩, ?_, ?_⟩ <;> intro f h <;> cases h

/-- False in general: identifiers given by later records are replaced by counters if the first record has none. -/
theorem C72_identifier_counterexample :
    ∃ f, fromRecords (G := Nat) none "UGID" [⟨0, []⟩, ⟨0, [("UGID", .int 40)]⟩] = .ok f ∧ f.uids = [1, 2] :=
  ⟨_, rfl, rfl⟩

/-- False in general: without a schema the width of a name column in netCDF is that of the first record's name, so a longer
name cannot be written. -/
theorem C72_string_width_counterexample :
    ∃ f c, fromRecords (G := Nat) none "UGID" [⟨0, [("N", .str "Iowa")]⟩, ⟨0, [("N", .str "Kansas")]⟩] = .ok f ∧
      f.columns.lookup "N" = some c ∧ c.type = .str 4 ∧ c.get 1 = some (.value (.str "Kansas")) ∧
      ncString 4 "Kansas" = .error .indexError := ⟨_, _, rfl, rfl, rfl, by decide, by decide⟩

/-- Geometry dictionaries without properties, all with the same coordinate system, become selection geometries in order with
that coordinate system and identifiers counting from one.  Missing: dictionaries with properties (these are records as above)
and with different coordinate systems. -/
theorem C72_dictionaries_partial {G : Type} (geomUid : Option String) (crs : Option Nat) (ds : List (GeomDict G)) (hne : ds ≠ [])
    (hp : ∀ d ∈ ds, d.props = none) (hc : ∀ d ∈ ds, d.crs = crs) :
    ∃ out, parseDicts geomUid ds = .ok out ∧ out.length = ds.length ∧
      ∀ (i : Nat) (d : GeomDict G), ds[i]? = some d → out[i]? = some (d.geom, ((i : Int) + 1), crs) := by
  cases ds with
  | nil => exact absurd rfl hne
  | cons d0 ds =>
    have hcrs : dictsCrs (d0 :: ds) none = crs := by
      rw [dictsCrs, hc d0 List.mem_cons_self]
      exact dictsCrs_same ds crs (fun d hd => hc d (List.mem_cons_of_mem _ hd))
    have hprops : ∀ r ∈ dictRecs 1 (d0 :: ds), ∃ n : Nat, r.props = [("UGID", .int n)] := by
      intro r hr
      obtain ⟨i, hi⟩ := List.getElem?_of_mem hr
      rw [dictRecs_get] at hi
      cases hd : (d0 :: ds)[i]? with
      | none => rw [hd] at hi; cases hi
      | some d =>
        rw [hd] at hi
        simp only [Option.map_some, Option.some.injEq] at hi
        subst hi
        exact ⟨_, by rw [GeomDict.toRec, hp d (List.mem_of_getElem? hd)]; rfl⟩
    have hh : Homogeneous (geomUid.getD "UGID") (d0.toRec 1) (dictRecs 1 (d0 :: ds)) := by
      obtain ⟨n0, h0⟩ := hprops (d0.toRec 1) (by simp [dictRecs])
      refine ⟨?_, ?_, ?_, ?_⟩
      · intro r hr; obtain ⟨n, h⟩ := hprops r hr; rw [h]; simp
      · intro r hr; obtain ⟨n, h⟩ := hprops r hr; rw [h, h0]; rfl
      · intro r hr k v w hv hw
        obtain ⟨n, h⟩ := hprops r hr
        rw [h] at hw; rw [h0] at hv
        simp at hv hw
        rw [hv.2, hw.2]; trivial
      · intro r hr v hv
        obtain ⟨n, h⟩ := hprops r hr
        rw [h] at hv
        simp at hv
        exact ⟨n, hv.2⟩
    obtain ⟨f, hf, hg, -, hrow⟩ := C72_records_partial (geomUid.getD "UGID") (d0.toRec 1) (dictRecs 2 ds) hh
    have huids : ∀ (i : Nat) (d : GeomDict G), (d0 :: ds)[i]? = some d → f.uids[i]? = some ((i : Int) + 1) := by
      intro i d hd
      have hi : (d0.toRec 1 :: dictRecs 2 ds)[i]? = some (d.toRec (1 + i)) := by
        have := dictRecs_get 1 (d0 :: ds) i
        rw [hd] at this
        exact this
      obtain ⟨h1, h2, -⟩ := hrow i _ hi
      by_cases hu : geomUid.getD "UGID" = "UGID"
      · rw [h1 ((i : Int) + 1) (by
          rw [hu, GeomDict.toRec, hp d (List.mem_of_getElem? hd)]
          simp; omega)]
      · exact h2 (by
          rw [GeomDict.toRec, hp d0 List.mem_cons_self]
          simpa using hu)
    refine ⟨(f.geoms.zip f.uids).map fun p => (p.1, p.2, dictsCrs (d0 :: ds) none), ?_, ?_, ?_⟩
    · unfold parseDicts
      rw [show dictRecs 1 (d0 :: ds) = d0.toRec 1 :: dictRecs 2 ds from rfl, hf]
    · have hlen : (d0 :: ds).length ≤ f.uids.length := by
        have := huids ds.length ((d0 :: ds)[ds.length]'(by simp)) (by simp)
        rw [List.getElem?_eq_some_iff] at this
        simpa [Nat.succ_le_iff] using this.1
      rw [List.length_map, List.length_zip, hg]
      simp only [List.length_map, List.length_cons, dictRecs_length] at hlen ⊢
      omega
    · intro i d hd
      have hi : (d0.toRec 1 :: dictRecs 2 ds)[i]? = some (d.toRec (1 + i)) := by
        have := dictRecs_get 1 (d0 :: ds) i
        rw [hd] at this
        exact this
      rw [List.getElem?_map, List.getElem?_zip_eq_some (z := (d.geom, (i : Int) + 1)).2 ⟨by rw [hg, List.getElem?_map, hi]; rfl, huids i d hd⟩, hcrs]
      rfl

example : parseDicts (G := Nat) none [{ geom := 5, crs := some 1 }, { geom := 6, crs := some 1 }] =
    .ok [(5, 1, some 1), (6, 2, some 1)] := rfl

/-- False in general: geometry dictionaries with different coordinate systems all get that of the last. -/
theorem C72_dictionary_crs_counterexample :
    parseDicts (G := Nat) none [{ geom := 5, crs := some 1 }, { geom := 6, crs := some 2 }] =
      .ok [(5, 1, some 2), (6, 2, some 2)] ∧
    parseDicts (G := Nat) none [{ geom := 5, crs := some 1 }, { geom := 6 }] = .ok [(5, 1, none), (6, 2, none)] :=
  ⟨rfl, rfl⟩

/-- False in general: identifiers filled in for dictionaries without properties may repeat one given by another. -/
theorem C72_dictionary_identifier_counterexample :
    parseDicts (G := Nat) none [{ geom := 5, props := some [("UGID", .int 2)] }, { geom := 6 }] =
      .ok [(5, 2, none), (6, 2, none)] := rfl

end Ocgis.Props
