import Verif.Spec.Records
/-!
# Lemmas
-/
namespace Ocgis.Props
open Ocgis Ocgis.Records Ocgis.Spec

theorem mem_lookup {β : Type} (l : List (String × β)) (hn : (l.map Prod.fst).Nodup) (k : String) (v : β) :
    l.lookup k = some v ↔ (k, v) ∈ l := by
  induction l with
  | nil => simp
  | cons p l ih =>
    obtain ⟨k', v'⟩ := p
    simp only [List.map_cons, List.nodup_cons] at hn
    rw [List.lookup_cons]
    by_cases h : k = k'
    · subst h
      simp only [beq_self_eq_true, Option.some.injEq, List.mem_cons, Prod.mk.injEq, true_and]
      constructor
      · exact fun h => Or.inl h.symm
      · rintro (h | h)
        · exact h.symm
        · exact absurd (List.mem_map.2 ⟨_, h, rfl⟩) hn.1
    · have : (k == k') = false := by simpa using h
      simp only [this, ih hn.2, List.mem_cons, Prod.mk.injEq, h, false_and, false_or]

theorem lookup_none {β : Type} (l : List (String × β)) (k : String) : l.lookup k = none ↔ k ∉ l.map Prod.fst := by
  induction l with
  | nil => simp
  | cons p l ih =>
    obtain ⟨k', v'⟩ := p
    rw [List.lookup_cons]
    by_cases h : k = k'
    · subst h; simp
    · have : (k == k') = false := by simpa using h
      simp only [this, ih, List.map_cons, List.mem_cons, h, false_or]

theorem lookup_update (cols : Columns) (k x : String) (c : Column) :
    (cols.update k c).lookup x = if x = k then (cols.lookup k).map (fun _ => c) else cols.lookup x := by
  unfold Columns.update
  induction cols with
  | nil => simp
  | cons p cols ih =>
    obtain ⟨k', c'⟩ := p
    rw [List.map_cons]
    by_cases hk : k' = k
    · subst hk
      simp only [if_true, List.lookup_cons, beq_self_eq_true, Option.map_some]
      by_cases hx : x = k'
      · subst hx; simp
      · have hb : (x == k') = false := by simpa using hx
        simp only [hb, hx, if_false] at ih ⊢
        exact ih
    · have hb' : (k == k') = false := by simpa using fun h => hk h.symm
      simp only [if_neg hk, List.lookup_cons, hb']
      by_cases hx : x = k'
      · subst hx
        simp [hk]
      · have hb : (x == k') = false := by simpa using hx
        simp only [hb]
        exact ih

theorem update_names (cols : Columns) (k : String) (c : Column) :
    (cols.update k c).map Prod.fst = cols.map Prod.fst := by
  unfold Columns.update
  rw [List.map_map]
  apply List.map_congr_left
  intro p _
  simp only [Function.comp]
  split
  · rename_i h; exact h.symm
  · rfl

theorem setProps_spec (uid : String) (idx : Nat) (ps : List (String × Val)) (hn : (ps.map Prod.fst).Nodup)
    (cols cols' : Columns) (h : setProps uid idx ps cols = .ok cols') :
    cols'.map Prod.fst = cols.map Prod.fst ∧
    ∀ k c, k ≠ uid → cols.lookup k = some c → ∃ c', cols'.lookup k = some c' ∧
      (match ps.lookup k with
        | none => c' = c
        | some v => setCell idx v c = .ok c') := by
  induction ps generalizing cols with
  | nil =>
    rw [setProps] at h
    injection h with h
    subst h
    exact ⟨rfl, fun k c _ hc => ⟨c, hc, rfl⟩⟩
  | cons p ps ih =>
    obtain ⟨k0, v0⟩ := p
    simp only [List.map_cons, List.nodup_cons] at hn
    rw [setProps] at h
    split at h
    · rename_i hu
      obtain ⟨h1, h2⟩ := ih hn.2 cols h
      refine ⟨h1, ?_⟩
      intro k c hk hc
      obtain ⟨c', hc', hm⟩ := h2 k c hk hc
      refine ⟨c', hc', ?_⟩
      rw [List.lookup_cons]
      have : (k == k0) = false := by simpa using fun h => hk (h.trans hu)
      simp only [this]
      exact hm
    · split at h
      · cases h
      · rename_i c0 hc0
        split at h
        · rename_i c1 hc1
          obtain ⟨h1, h2⟩ := ih hn.2 _ h
          refine ⟨by rw [h1, update_names], ?_⟩
          intro k c hk hc
          by_cases hkk : k = k0
          · subst hkk
            rw [hc0] at hc
            injection hc with hc
            subst hc
            obtain ⟨c', hc', hm⟩ := h2 k c1 hk (by rw [lookup_update, if_pos rfl, hc0]; rfl)
            refine ⟨c', hc', ?_⟩
            rw [(lookup_none ps k).2 hn.1] at hm
            simp only at hm
            rw [List.lookup_cons]
            simp only [beq_self_eq_true]
            rw [hm]
            exact hc1
          · obtain ⟨c', hc', hm⟩ := h2 k c hk (by rw [lookup_update, if_neg hkk]; exact hc)
            refine ⟨c', hc', ?_⟩
            rw [List.lookup_cons]
            have : (k == k0) = false := by simpa using hkk
            simp only [this]
            exact hm
        · cases h

/-- No element is masked. -/
def NoMask (c : Column) : Prop := ∀ m, c.mask = some m → ∀ b ∈ m, b = false

theorem setCell_spec (idx : Nat) (v : Val) (c c' : Column) (h : setCell idx v c = .ok c') :
    c'.type = c.type ∧ c'.cells.length = c.cells.length ∧ (NoMask c → NoMask c') ∧
    (v = .null → c'.cells = c.cells) ∧
    (v ≠ .null → ∃ w, coerce c.type v = .ok w ∧ c'.cells = c.cells.set idx (.value w)) := by
  unfold setCell at h
  split at h
  · injection h with h
    subst h
    refine ⟨rfl, rfl, ?_, fun _ => rfl, fun h => absurd rfl h⟩
    intro hm m hm' b hb
    simp only [Option.some.injEq] at hm'
    subst hm'
    rcases List.mem_or_eq_of_mem_set hb with hb | hb
    · cases hc : c.mask with
      | none => rw [hc] at hb; simp at hb; exact hb.2
      | some m => rw [hc] at hb; exact hm m hc b hb
    · exact hb
  · rename_i hne
    split at h
    · rename_i w hw
      injection h with h
      subst h
      exact ⟨rfl, by simp, fun hm => hm, fun h => absurd h hne, fun _ => ⟨w, hw, rfl⟩⟩
    · cases h

theorem setRecords_spec {G : Type} (uid : String) (rs : List (Rec G)) (hn : Dictionaries rs) (idx : Nat)
    (cols cols' : Columns) (h : setRecords uid idx rs cols = .ok cols') :
    cols'.map Prod.fst = cols.map Prod.fst ∧
    ∀ k c, k ≠ uid → cols.lookup k = some c → NoMask c → ∃ c', cols'.lookup k = some c' ∧ c'.type = c.type ∧ NoMask c' ∧
      c'.cells.length = c.cells.length ∧
      (∀ i, i < idx → c'.cells[i]? = c.cells[i]?) ∧
      (∀ i r, rs[i]? = some r → idx + i < c.cells.length →
        (r.props.lookup k = none ∨ r.props.lookup k = some .null → c'.cells[idx + i]? = c.cells[idx + i]?) ∧
        (∀ v, r.props.lookup k = some v → v ≠ .null →
          ∃ w, coerce c.type v = .ok w ∧ c'.cells[idx + i]? = some (.value w))) := by
  induction rs generalizing idx cols with
  | nil =>
    rw [setRecords] at h
    injection h with h
    subst h
    exact ⟨rfl, fun k c _ hc hm => ⟨c, hc, rfl, hm, rfl, fun _ _ => rfl, by simp⟩⟩
  | cons r rs ih =>
    rw [setRecords] at h
    split at h
    · rename_i cols1 h1
      obtain ⟨n1, s1⟩ := setProps_spec uid idx r.props (hn r List.mem_cons_self) cols cols1 h1
      obtain ⟨n2, s2⟩ := ih (fun x hx => hn x (List.mem_cons_of_mem _ hx)) (idx + 1) cols1 h
      refine ⟨n2.trans n1, ?_⟩
      intro k c hk hc hm
      obtain ⟨c1, hc1, hs1⟩ := s1 k c hk hc
      -- what the first record does to the column
      have hone : c1.type = c.type ∧ c1.cells.length = c.cells.length ∧ NoMask c1 ∧
          (∀ i, i ≠ idx → c1.cells[i]? = c.cells[i]?) ∧
          (r.props.lookup k = none ∨ r.props.lookup k = some .null → c1.cells[idx]? = c.cells[idx]?) ∧
          (∀ v, r.props.lookup k = some v → v ≠ .null → idx < c.cells.length →
            ∃ w, coerce c.type v = .ok w ∧ c1.cells[idx]? = some (.value w)) := by
        cases hl : r.props.lookup k with
        | none =>
          rw [hl] at hs1
          simp only at hs1
          subst hs1
          exact ⟨rfl, rfl, hm, fun _ _ => rfl, fun _ => rfl, by simp⟩
        | some v =>
          rw [hl] at hs1
          simp only at hs1
          obtain ⟨t1, t2, t3, t4, t5⟩ := setCell_spec idx v c c1 hs1
          by_cases hv : v = .null
          · have := t4 hv
            refine ⟨t1, t2, t3 hm, fun _ _ => by rw [this], fun _ => by rw [this], ?_⟩
            intro w hw hw'
            injection hw with hw
            exact absurd (hw ▸ hv) hw'
          · obtain ⟨w, hw, hcell⟩ := t5 hv
            refine ⟨t1, t2, t3 hm, ?_, ?_, ?_⟩
            · intro i hi; rw [hcell, List.getElem?_set_ne (Ne.symm hi)]
            · rintro (h | h)
              · cases h
              · injection h with h; exact absurd h hv
            · intro u hu _ hlt
              injection hu with hu
              subst hu
              exact ⟨w, hw, by rw [hcell, List.getElem?_set_self hlt]⟩
      obtain ⟨o1, o2, o3, o4, o5, o6⟩ := hone
      obtain ⟨c', hc', p1, p2, p3, p4, p5⟩ := s2 k c1 hk hc1 o3
      refine ⟨c', hc', p1.trans o1, p2, p3.trans o2, ?_, ?_⟩
      · intro i hi
        rw [p4 i (by omega), o4 i (by omega)]
      · intro i x hx hlt
        cases i with
        | zero =>
          simp only [List.getElem?_cons_zero, Option.some.injEq] at hx
          subst hx
          rw [Nat.add_zero] at hlt ⊢
          rw [p4 idx (by omega)]
          exact ⟨o5, fun v hv hvn => o6 v hv hvn hlt⟩
        | succ i =>
          simp only [List.getElem?_cons_succ] at hx
          have e : idx + (i + 1) = idx + 1 + i := by omega
          obtain ⟨q1, q2⟩ := p5 i x hx (by omega)
          rw [e]
          rw [e] at hlt
          refine ⟨fun h => (q1 h).trans (o4 _ (by omega)), ?_⟩
          intro v hv hvn
          rw [← o1]
          exact q2 v hv hvn
    · cases h

theorem lookup_map_snd {β γ : Type} (l : List (String × β)) (f : β → γ) (k : String) :
    (l.map fun p => (p.1, f p.2)).lookup k = (l.lookup k).map f := by
  induction l with
  | nil => rfl
  | cons p l ih =>
    obtain ⟨k', v⟩ := p
    simp only [List.map_cons, List.lookup_cons]
    split
    · rfl
    · exact ih

theorem lookup_filter_ne {β : Type} (l : List (String × β)) (u k : String) (h : k ≠ u) :
    (l.filter fun p => decide (p.1 ≠ u)).lookup k = l.lookup k := by
  induction l with
  | nil => rfl
  | cons p l ih =>
    obtain ⟨k', v⟩ := p
    by_cases hk : k' = u
    · subst hk
      have : (k == k') = false := by simpa using h
      rw [List.filter_cons_of_neg (by simp), List.lookup_cons, this]
      exact ih
    · rw [List.filter_cons_of_pos (by simpa using hk), List.lookup_cons, List.lookup_cons, ih]

theorem newColumns_lookup (uid : String) (n : Nat) (s : List (String × Ty)) (k : String) (h : k ≠ uid) :
    (newColumns uid n s).lookup k =
      (s.lookup k).map fun t => ({ type := t, cells := List.replicate n .fill } : Column) := by
  unfold newColumns
  rw [lookup_map_snd (s.filter fun p => decide (p.1 ≠ uid)) (fun t => ({ type := t, cells := List.replicate n .fill } : Column)),
    lookup_filter_ne s uid k h]

theorem newColumns_uid (uid : String) (n : Nat) (s : List (String × Ty)) : (newColumns uid n s).lookup uid = none := by
  rw [lookup_none]
  unfold newColumns
  simp

theorem coerce_fits (t : Ty) (v : Val) (h : FitsType t v) : coerce t v = .ok v := by
  cases t <;> cases v <;> first | rfl | exact absurd h id

theorem noMask_get (c : Column) (h : NoMask c) (i : Nat) : c.get i = c.cells[i]? := by
  unfold Column.get
  split
  · rename_i hm
    cases hc : c.mask with
    | none => rw [hc] at hm; simp at hm
    | some m =>
      rw [hc] at hm
      simp only [Option.bind_some] at hm
      exact absurd (h m hc true (List.mem_of_getElem? hm)) (by simp)
  · rfl

/-- The parts of a successful conversion. -/
theorem fromRecords_parts {G : Type} (schema : Option (List (String × Ty))) (uid : String) (records : List (Rec G)) (f : Fld G)
    (h : fromRecords schema uid records = .ok f) :
    ∃ r rs s, records = r :: rs ∧ s = schema.getD (firstSchema r) ∧ f.geoms = records.map Rec.geom ∧
      recUids uid ((r.props.lookup uid).isSome) 1 records = .ok f.uids ∧
      setRecords uid 0 records (newColumns uid records.length s) = .ok f.columns := by
  unfold fromRecords at h
  split at h
  · cases h
  · rename_i r rs
    split at h
    · cases h
    · rename_i uids hu
      split at h
      · cases h
      · rename_i cols hc
        injection h with h
        subst h
        refine ⟨r, rs, _, rfl, rfl, rfl, hu, ?_⟩
        cases schema <;> exact hc

theorem setProps_ok (uid : String) (idx : Nat) (ps : List (String × Val)) (cols : Columns)
    (h : ∀ k v, (k, v) ∈ ps → k ≠ uid → ∃ c, cols.lookup k = some c ∧ FitsType c.type v) :
    ∃ cols', setProps uid idx ps cols = .ok cols' ∧
      ∀ k c, cols.lookup k = some c → ∃ c', cols'.lookup k = some c' ∧ c'.type = c.type := by
  induction ps generalizing cols with
  | nil => exact ⟨cols, rfl, fun k c hc => ⟨c, hc, rfl⟩⟩
  | cons p ps ih =>
    obtain ⟨k0, v0⟩ := p
    rw [setProps]
    split
    · exact ih cols (fun k v hk => h k v (List.mem_cons_of_mem _ hk))
    · rename_i hne
      obtain ⟨c0, hc0, hf⟩ := h k0 v0 List.mem_cons_self hne
      have hset : ∃ c1, setCell idx v0 c0 = .ok c1 ∧ c1.type = c0.type := by
        have hw := coerce_fits _ _ hf
        unfold setCell
        cases v0 with
        | null => cases hct : c0.type <;> rw [hct] at hf <;> exact absurd hf id
        | int x => exact ⟨⟨c0.type, c0.cells.set idx (.value (.int x)), c0.mask⟩, by simp only [hw], rfl⟩
        | float x => exact ⟨⟨c0.type, c0.cells.set idx (.value (.float x)), c0.mask⟩, by simp only [hw], rfl⟩
        | str x => exact ⟨⟨c0.type, c0.cells.set idx (.value (.str x)), c0.mask⟩, by simp only [hw], rfl⟩
      obtain ⟨c1, hc1, ht⟩ := hset
      simp only [hc0, hc1]
      have hkeep : ∀ k c, cols.lookup k = some c → ∃ c', (cols.update k0 c1).lookup k = some c' ∧ c'.type = c.type := by
        intro k c hc
        rw [lookup_update]
        split
        · rename_i hk
          subst hk
          rw [hc0] at hc
          injection hc with hc
          subst hc
          exact ⟨c1, by rw [hc0]; rfl, ht⟩
        · exact ⟨c, hc, rfl⟩
      obtain ⟨cols', h1, h2⟩ := ih (cols.update k0 c1) (by
        intro k v hk hne
        obtain ⟨c, hc, hf⟩ := h k v (List.mem_cons_of_mem _ hk) hne
        obtain ⟨c', hc', ht'⟩ := hkeep k c hc
        exact ⟨c', hc', by rw [ht']; exact hf⟩)
      refine ⟨cols', h1, ?_⟩
      intro k c hc
      obtain ⟨c', hc', ht'⟩ := hkeep k c hc
      obtain ⟨c'', hc'', ht''⟩ := h2 k c' hc'
      exact ⟨c'', hc'', ht''.trans ht'⟩

theorem setRecords_ok {G : Type} (uid : String) (rs : List (Rec G)) (idx : Nat) (cols : Columns)
    (h : ∀ r ∈ rs, ∀ k v, (k, v) ∈ r.props → k ≠ uid → ∃ c, cols.lookup k = some c ∧ FitsType c.type v) :
    ∃ cols', setRecords uid idx rs cols = .ok cols' := by
  induction rs generalizing idx cols with
  | nil => exact ⟨cols, rfl⟩
  | cons r rs ih =>
    obtain ⟨c1, h1, h2⟩ := setProps_ok uid idx r.props cols (h r List.mem_cons_self)
    rw [setRecords, h1]
    apply ih
    intro x hx k v hk hne
    obtain ⟨c, hc, hf⟩ := h x (List.mem_cons_of_mem _ hx) k v hk hne
    obtain ⟨c', hc', ht⟩ := h2 k c hc
    exact ⟨c', hc', by rw [ht]; exact hf⟩

theorem recUids_count {G : Type} (uid : String) (ctr : Nat) (rs : List (Rec G)) :
    recUids uid false ctr rs = .ok ((List.range' ctr rs.length).map fun (n : Nat) => (n : Int)) := by
  induction rs generalizing ctr with
  | nil => rfl
  | cons r rs ih =>
    rw [recUids, ih]
    simp [recUid, List.range'_succ]

theorem recUids_given {G : Type} (uid : String) (ctr : Nat) (rs : List (Rec G))
    (h : ∀ r ∈ rs, ∃ i, r.props.lookup uid = some (.int i)) :
    ∃ is, recUids uid true ctr rs = .ok is ∧ is.length = rs.length ∧
      ∀ (j : Nat) (r : Rec G) (i : Int), rs[j]? = some r → r.props.lookup uid = some (.int i) → is[j]? = some i := by
  induction rs generalizing ctr with
  | nil => exact ⟨[], rfl, rfl, by simp⟩
  | cons r rs ih =>
    obtain ⟨i, hi⟩ := h r List.mem_cons_self
    obtain ⟨is, h1, h2, h3⟩ := ih (ctr + 1) (fun x hx => h x (List.mem_cons_of_mem _ hx))
    refine ⟨i :: is, ?_, by simp [h2], ?_⟩
    · rw [recUids, recUid, hi, h1]; rfl
    · intro j x k hj hk
      cases j with
      | zero =>
        simp only [List.getElem?_cons_zero, Option.some.injEq] at hj
        subst hj
        rw [hi] at hk
        injection hk with hk
        injection hk with hk
        simp [hk]
      | succ j =>
        simp only [List.getElem?_cons_succ] at hj ⊢
        exact h3 j x k hj hk

theorem fits_fionaType (v w : Val) (h : SameKind v w) : FitsType (fionaType v) w := by
  cases v <;> cases w <;> first | trivial | exact absurd h id

theorem dictsCrs_last {G : Type} (ds : List (GeomDict G)) (d : GeomDict G) (c : Option Nat) :
    dictsCrs (ds ++ [d]) c = d.crs := by
  induction ds generalizing c with
  | nil => rfl
  | cons x ds ih => exact ih _

theorem dictsCrs_same {G : Type} (ds : List (GeomDict G)) (c : Option Nat) (h : ∀ d ∈ ds, d.crs = c) :
    dictsCrs ds c = c := by
  induction ds with
  | nil => rfl
  | cons x ds ih =>
    rw [dictsCrs, h x List.mem_cons_self]
    exact ih (fun d hd => h d (List.mem_cons_of_mem _ hd))

theorem dictRecs_length {G : Type} (n : Nat) (ds : List (GeomDict G)) : (dictRecs n ds).length = ds.length := by
  induction ds generalizing n with
  | nil => rfl
  | cons d ds ih => simp [dictRecs, ih]

theorem dictRecs_get {G : Type} (n : Nat) (ds : List (GeomDict G)) (i : Nat) :
    (dictRecs n ds)[i]? = (ds[i]?).map (GeomDict.toRec (n + i)) := by
  induction ds generalizing n i with
  | nil => rfl
  | cons d ds ih =>
    cases i with
    | zero => rfl
    | succ i =>
      simp only [dictRecs, List.getElem?_cons_succ, ih]
      have : n + 1 + i = n + (i + 1) := by omega
      rw [this]

/-- What is stored for a property that is not null. -/
theorem stored_value {G : Type} (schema : Option (List (String × Ty))) (uid : String) (records : List (Rec G))
    (f : Fld G) (h : fromRecords schema uid records = .ok f) (hd : Dictionaries records)
    (i : Nat) (r : Rec G) (k : String) (c : Column) (hi : records[i]? = some r) (hk : k ≠ uid)
    (hc : f.columns.lookup k = some c) (v : Val) (hv : (k, v) ∈ r.props) (hnn : v ≠ .null) :
    ∃ w, coerce c.type v = .ok w ∧ c.get i = some (.value w) := by
  obtain ⟨r0, rs, s, hr, -, hg, -, hs⟩ := fromRecords_parts schema uid records f h
  obtain ⟨hn, hsp⟩ := setRecords_spec uid records hd 0 _ _ hs
  have hdr := hd r (List.mem_of_getElem? hi)
  cases hl : (newColumns uid records.length s).lookup k with
  | none =>
    rw [lookup_none, ← hn, ← lookup_none, hc] at hl
    cases hl
  | some c0 =>
    have hc0 : c0.cells = List.replicate records.length .fill ∧ NoMask c0 := by
      rw [newColumns_lookup uid _ s k hk] at hl
      cases hs' : s.lookup k with
      | none => rw [hs'] at hl; cases hl
      | some t =>
        rw [hs'] at hl
        simp only [Option.map_some, Option.some.injEq] at hl
        subst hl
        exact ⟨rfl, fun m hm => by cases hm⟩
    obtain ⟨c', hc', ht, hm, -, -, hcell⟩ := hsp k c0 hk hl hc0.2
    rw [hc] at hc'
    injection hc' with hc'
    subst hc'
    have hlt : i < records.length := by
      rw [List.getElem?_eq_some_iff] at hi; exact hi.1
    obtain ⟨w, hw, hcw⟩ := (hcell i r hi (by rw [hc0.1]; simpa using hlt)).2 v ((mem_lookup _ hdr k v).2 hv) hnn
    refine ⟨w, by rw [ht]; exact hw, ?_⟩
    rw [noMask_get c hm]
    simpa using hcw

end Ocgis.Props
