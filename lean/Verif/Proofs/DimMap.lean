import Verif.Spec.DimMap
/-!
# Lemmas
-/
namespace Ocgis.Props
open Ocgis Ocgis.DimMap

theorem checkKey_coord (k : String) (h : k ∈ coordKeys) : checkKey k = .ok () := by
  have : k ≠ "crs" := by rintro rfl; revert h; decide
  rw [checkKey, if_neg this, if_pos (Or.inl h)]

theorem reports_entry (s : Store) (k : String) (h : k ∈ coordKeys) : Reports s k (readingOf (s.entry k)) := by
  simp [Reports, getVariable, getBounds, getDimension, getAttrs, checkKey_coord k h, readingOf]

theorem reports_unique (s : Store) (k : String) (r r' : Reading) (h : Reports s k r) (h' : Reports s k r') : r = r' := by
  obtain ⟨a, b, c, d⟩ := h
  obtain ⟨a', b', c', d'⟩ := h'
  rw [a] at a'; rw [b] at b'; rw [c] at c'; rw [d] at d'
  simp only [Except.ok.injEq] at a' b' c' d'
  cases r; cases r'; simp_all

theorem put_entry_same (s : Store) (k : String) (e : Entry) : (s.put k e).entry k = e := by
  simp [Store.put, Store.entry]

theorem put_entry_other (s : Store) (k j : String) (e : Entry) (h : j ≠ k) : (s.put k e).entry j = s.entry j := by
  simp [Store.put, Store.entry, h]

theorem drop_entry_same (s : Store) (k : String) : (s.drop k).entry k = {} := by
  simp [Store.drop, Store.entry]

theorem drop_entry_other (s : Store) (k j : String) (h : j ≠ k) : (s.drop k).entry j = s.entry j := by
  simp [Store.drop, Store.entry, h]

theorem SameEntry.rfl' (e : Entry) : SameEntry e e := ⟨rfl, rfl⟩

theorem put_same (s : Store) (k j : String) (e : Entry) (h : SameEntry e (s.entry k)) :
    SameEntry ((s.put k e).entry j) (s.entry j) := by
  by_cases hj : j = k
  · subst hj; rw [put_entry_same]; exact h
  · rw [put_entry_other _ _ _ _ hj]; exact SameEntry.rfl' _

theorem getVariable_same (s : Store) (k j : String) : SameEntry ((getVariable s k).2.entry j) (s.entry j) := by
  rw [getVariable]
  split
  · exact SameEntry.rfl' _
  · exact put_same _ _ _ _ ⟨by simp [readingOf], rfl⟩

theorem getBounds_same (s : Store) (k j : String) : SameEntry ((getBounds s k).2.entry j) (s.entry j) := by
  rw [getBounds]
  split
  · exact SameEntry.rfl' _
  · exact put_same _ _ _ _ ⟨by simp [readingOf], rfl⟩

theorem getDimension_same (s : Store) (k j : String) : SameEntry ((getDimension s k).2.entry j) (s.entry j) := by
  rw [getDimension]
  split
  · exact SameEntry.rfl' _
  · exact put_same _ _ _ _ ⟨by simp [readingOf], rfl⟩

theorem getAttrs_same (s : Store) (k j : String) : SameEntry ((getAttrs s k).2.entry j) (s.entry j) := by
  rw [getAttrs]
  split
  · exact SameEntry.rfl' _
  · exact put_same _ _ _ _ ⟨by simp [readingOf], rfl⟩

theorem setVariable_other (s : Store) (k j : String) (v : Option VarArg) (a : SetArgs) (h : k ≠ j) :
    (setVariable s k v a).2.entry j = s.entry j := by
  rw [setVariable.eq_def]
  split
  · rfl
  · split
    · rfl
    · split
      · rfl
      · split
        · exact drop_entry_other _ _ _ (fun e => h e.symm)
        · split
          · exact put_entry_other _ _ _ _ (fun e => h e.symm)
          · exact put_entry_other _ _ _ _ (fun e => h e.symm)

theorem setBounds_other (s : Store) (k j : String) (b : String) (h : k ≠ j) :
    (setBounds s k b).2.entry j = s.entry j := by
  rw [setBounds]
  split
  · rfl
  · split <;> exact put_entry_other _ _ _ _ (fun e => h e.symm)

theorem step_same (known : String → Bool) (s : Store) (op : Op) (j : String) (h : ¬ Sets j op) :
    SameEntry ((step known s op).entry j) (s.entry j) := by
  cases op with
  | getVariable k => exact getVariable_same s k j
  | getBounds k => exact getBounds_same s k j
  | getDimension k => exact getDimension_same s k j
  | getAttrs k => exact getAttrs_same s k j
  | getCrs => exact put_same _ _ _ _ ⟨by simp [readingOf], rfl⟩
  | getMask => exact put_same _ _ _ _ ⟨by simp [readingOf], rfl⟩
  | setVariable k v a =>
    have := setVariable_other s k j v a h
    simp only [step, this]; exact SameEntry.rfl' _
  | setBounds k b =>
    have := setBounds_other s k j b h
    simp only [step, this]; exact SameEntry.rfl' _
  | setCrs v =>
    have : (step known s (.setCrs v)).entry j = s.entry j := put_entry_other _ _ _ _ h
    rw [this]; exact SameEntry.rfl' _
  | setDriver d =>
    have : (step known s (.setDriver d)).entry j = s.entry j := by
      simp only [step, setDriver]; split <;> rfl
    rw [this]; exact SameEntry.rfl' _
  | setMask v va a =>
    have : (step known s (.setMask v va a)).entry j = s.entry j := put_entry_other _ _ _ _ h
    rw [this]; exact SameEntry.rfl' _
  | setAbstraction a => exact SameEntry.rfl' _
  | setIsomorphic b => exact SameEntry.rfl' _

theorem run_same (known : String → Bool) (ops : List Op) (s : Store) (j : String) (h : ∀ op ∈ ops, ¬ Sets j op) :
    SameEntry ((run known s ops).entry j) (s.entry j) := by
  induction ops generalizing s with
  | nil => exact SameEntry.rfl' _
  | cons op ops ih =>
    have h1 := step_same known s op j (h op (by simp))
    have h2 := ih (step known s op) (fun o ho => h o (by simp [ho]))
    rw [run, List.foldl_cons]
    exact ⟨h2.1.trans h1.1, h2.2.trans h1.2⟩

theorem chosenDimension_records (v : VarArg) (a : SetArgs) (dim : Option (List String))
    (h : chosenDimension v a.dimension a.pos a.dimless = .ok dim) : RecordsDimension v a (dim.getD []) := by
  rw [chosenDimension.eq_def] at h
  split at h
  · next d hd => simp only [Except.ok.injEq] at h; subst h; exact .given d hd
  · next hd ho => simp only [Except.ok.injEq] at h; subst h; exact .name hd ho
  · next o hd ho =>
    rw [objDimension] at h
    split at h
    · next hds => simp only [Except.ok.injEq] at h; subst h; exact .scalar o hd ho hds
    · next d hds =>
      simp only [Except.ok.injEq] at h; subst h
      cases hl : a.dimless with
      | true => exact .dimensionless o hd ho hl
      | false => exact .only o d hd ho hl hds
    · next ds h1 h2 =>
      cases hl : a.dimless with
      | true =>
        rw [hl] at h
        have : dim = none := by split at h <;> simp_all
        subst this; exact .dimensionless o hd ho hl
      | false =>
        rw [hl] at h
        split at h
        · simp at h
        · next p hp =>
          simp only [Bool.false_eq_true, if_false] at h
          split at h
          · next d hdd =>
            simp only [Except.ok.injEq] at h; subst h
            refine .position o d p hd ho hl ?_ hp hdd
            match hx : o.dims with
            | [] => exact absurd hx h1
            | [e] => exact absurd hx (h2 e)
            | _ :: _ :: _ => simp
          · simp at h

theorem setVariable_ok (s s' : Store) (k : String) (v : VarArg) (a : SetArgs)
    (h : setVariable s k (some v) a = (.ok (), s')) :
    k ∈ coordKeys ∧ ∃ dim, chosenDimension v a.dimension a.pos a.dimless = .ok dim ∧ s' = storeEntry s k v a dim := by
  rw [setVariable.eq_def] at h
  split at h
  · simp at h
  · split at h
    · simp at h
    · split at h
      · simp at h
      · next hk =>
        refine ⟨Classical.not_not.1 hk, ?_⟩
        split at h
        · next hv => simp at hv
        · next w hv =>
          simp only [Option.some.injEq] at hv; subst hv
          split at h
          · simp at h
          · next dim hd => exact ⟨dim, hd, (Prod.mk.inj h).2.symm⟩

theorem updateAttrs_none (a : Attrs) : updateAttrs a noAttrs = a := by
  funext x; simp [updateAttrs, noAttrs]

theorem importKey_other (src d d' : Store) (k j : String) (h : importKey src d k = .ok d') (hj : j ≠ k) :
    d'.entry j = d.entry j ∧ d'.entries j = d.entries j := by
  rw [importKey] at h
  split at h
  · simp only [Except.ok.injEq] at h; subst h; exact ⟨rfl, rfl⟩
  · rw [importEntry] at h
    split at h
    · simp at h
    · split at h
      · next hk => simp only [Except.ok.injEq] at h; subst h; subst hk
                   simp [setCrs, Store.put, Store.entry, hj]
      · split at h
        · next hk =>
          split at h
          · simp only [Except.ok.injEq] at h; subst h; exact ⟨rfl, rfl⟩
          · simp only [Except.ok.injEq] at h; subst h; subst hk
            simp [setMask, Store.put, Store.entry, hj]
        · split at h
          · next hs =>
            simp only [Except.ok.injEq] at h; subst h
            rw [setVariable.eq_def] at hs
            split at hs
            · simp at hs
            · split at hs
              · simp at hs
              · split at hs
                · simp at hs
                · split at hs
                  · rw [← (Prod.mk.inj hs).2]; simp [Store.drop, Store.entry, hj]
                  · split at hs
                    · simp at hs
                    · rw [← (Prod.mk.inj hs).2]; simp [storeEntry, Store.put, Store.entry, hj]
          · simp at h

theorem importKey_props (src d d' : Store) (k : String) (h : importKey src d k = .ok d') :
    d'.driver = d.driver ∧ d'.abstraction = d.abstraction ∧ d'.isomorphic = d.isomorphic := by
  rw [importKey] at h
  split at h
  · simp only [Except.ok.injEq] at h; subst h; exact ⟨rfl, rfl, rfl⟩
  · rw [importEntry] at h
    split at h
    · simp at h
    · split at h
      · simp only [Except.ok.injEq] at h; subst h; exact ⟨rfl, rfl, rfl⟩
      · split at h
        · split at h
          · simp only [Except.ok.injEq] at h; subst h; exact ⟨rfl, rfl, rfl⟩
          · simp only [Except.ok.injEq] at h; subst h; exact ⟨rfl, rfl, rfl⟩
        · split at h
          · next hs =>
            simp only [Except.ok.injEq] at h; subst h
            rw [setVariable.eq_def] at hs
            split at hs
            · simp at hs
            · split at hs
              · simp at hs
              · split at hs
                · simp at hs
                · split at hs
                  · rw [← (Prod.mk.inj hs).2]; exact ⟨rfl, rfl, rfl⟩
                  · split at hs
                    · simp at hs
                    · rw [← (Prod.mk.inj hs).2]; exact ⟨rfl, rfl, rfl⟩
          · simp at h

theorem coord_not_special (k : String) (hk : k ∈ coordKeys) : k ∉ specialKeys ∧ k ≠ "crs" ∧ k ≠ "spatial_mask" := by
  simp only [coordKeys, List.mem_cons, List.not_mem_nil, or_false] at hk
  rcases hk with rfl | rfl | rfl | rfl | rfl | rfl | rfl | rfl <;> decide

theorem importKey_coord (known : String → Bool) (src d : Store) (k : String) (hk : k ∈ coordKeys)
    (hs : Importable known src) (hd : d.entries k = none) :
    ∃ d', importKey src d k = .ok d' ∧ SameEntry (d'.entry k) (src.entry k) := by
  obtain ⟨h1, h2, h3⟩ := coord_not_special k hk
  rw [importKey]
  cases he : src.entries k with
  | none => exact ⟨d, rfl, by simp [Store.entry, hd, he, SameEntry]⟩
  | some e =>
    have hsrc : src.entry k = e := by simp [Store.entry, he]
    rw [hsrc]
    simp only [importEntry]
    rcases hs.coords k hk e he with ⟨n, b, dd, a, v1, v2, v3, v4⟩ | ⟨v1, v2, v3⟩
    · simp only [v1, if_neg h2, if_neg h3, Option.map_some]
      have hset : setVariable d k (some { name := n })
          { dimension := e.dimension, bounds := e.bounds.getD none, attrs := e.attrs, section_ := e.section_ }
          = (.ok (), storeEntry d k { name := n }
              { dimension := e.dimension, bounds := e.bounds.getD none, attrs := e.attrs, section_ := e.section_ }
              (some dd)) := by
        rw [setVariable, if_neg h1, if_neg (by simp [v3]), if_neg (by simpa using hk)]
        simp [chosenDimension, v3]
      rw [hset]
      refine ⟨_, rfl, ?_⟩
      rw [storeEntry, put_entry_same]
      have hd' : d.entry k = {} := by simp [Store.entry, hd]
      constructor
      · simp only [readingOf, v1, v2, v3, v4, chosenBounds, chosenAttrs, hd', Option.getD_some, Option.getD_none,
          Option.map_none, updateAttrs_none]
        cases b <;> rfl
      · simp [hd']
    · simp only [v1, if_neg h2, if_neg h3, Option.map_none]
      by_cases hsec : (e.section_.isSome = true ∧ (none : Option Nat) = none ∧ e.dimension = none)
      · exact absurd hsec.1 (by simp [v3])
      · have hset : setVariable d k none
            { dimension := e.dimension, bounds := e.bounds.getD none, attrs := e.attrs, section_ := e.section_ }
            = (.ok (), d.drop k) := by
          rw [setVariable, if_neg h1, if_neg hsec, if_neg (by simpa using hk)]
        rw [hset]
        refine ⟨_, rfl, ?_⟩
        rw [drop_entry_same]
        exact ⟨by rw [v2]; rfl, by rw [v3]⟩

theorem import_fold (known : String → Bool) (src : Store) (hs : Importable known src) (ks : List String)
    (hnd : ks.Nodup) (hks : ∀ k ∈ ks, k ∈ coordKeys) (d : Store) (hd : ∀ k ∈ ks, d.entries k = none) :
    ∃ d', ks.foldlM (importKey src) d = .ok d'
      ∧ (∀ k ∈ ks, SameEntry (d'.entry k) (src.entry k))
      ∧ (∀ j, j ∉ ks → d'.entry j = d.entry j ∧ d'.entries j = d.entries j)
      ∧ d'.driver = d.driver ∧ d'.abstraction = d.abstraction ∧ d'.isomorphic = d.isomorphic := by
  induction ks generalizing d with
  | nil => exact ⟨d, rfl, by simp, fun j _ => ⟨rfl, rfl⟩, rfl, rfl, rfl⟩
  | cons k ks ih =>
    rw [List.nodup_cons] at hnd
    obtain ⟨d1, h1, h2⟩ := importKey_coord known src d k (hks k (by simp)) hs (hd k (by simp))
    obtain ⟨p1, p2, p3⟩ := importKey_props _ _ _ _ h1
    obtain ⟨d', g1, g2, g3, g4, g5, g6⟩ := ih hnd.2 (fun x hx => hks x (by simp [hx])) d1 (by
      intro x hx
      have hne : x ≠ k := by rintro rfl; exact hnd.1 hx
      rw [(importKey_other _ _ _ _ x h1 hne).2]; exact hd x (by simp [hx]))
    refine ⟨d', ?_, ?_, ?_, g4.trans p1, g5.trans p2, g6.trans p3⟩
    · rw [List.foldlM_cons, h1]; exact g1
    · intro x hx
      rcases List.mem_cons.1 hx with rfl | hx
      · rw [(g3 x hnd.1).1]; exact h2
      · exact g2 x hx
    · intro j hj
      simp only [List.mem_cons, not_or] at hj
      have a := g3 j hj.2
      have b := importKey_other _ _ _ _ j h1 hj.1
      exact ⟨a.1.trans b.1, a.2.trans b.2⟩

theorem coordKeys_nodup : coordKeys.Nodup := by decide

theorem import_all (known : String → Bool) (src : Store) (hs : Importable known src) (d : Store)
    (hd : ∀ k, d.entries k = none) :
    ∃ d', (coordKeys ++ ["crs", "spatial_mask"]).foldlM (importKey src) d = .ok d'
      ∧ (∀ k ∈ coordKeys, SameEntry (d'.entry k) (src.entry k))
      ∧ (d'.entry "crs").var.getD none = (src.entry "crs").var.getD none
      ∧ (d'.entry "spatial_mask").var.getD none = (src.entry "spatial_mask").var.getD none
      ∧ d'.driver = d.driver ∧ d'.abstraction = d.abstraction ∧ d'.isomorphic = d.isomorphic := by
  obtain ⟨d1, h1, h2, h3, h4, h5, h6⟩ := import_fold known src hs coordKeys coordKeys_nodup (fun k h => h) d
    (fun k _ => hd k)
  have c1 := h3 "crs" (by decide)
  have m1 := h3 "spatial_mask" (by decide)
  -- crs
  have hcrs : ∃ d2, importKey src d1 "crs" = .ok d2
      ∧ (d2.entry "crs").var.getD none = (src.entry "crs").var.getD none := by
    rw [importKey]
    cases he : src.entries "crs" with
    | none => exact ⟨d1, rfl, by rw [c1.1]; simp [Store.entry, hd, he]⟩
    | some e =>
      obtain ⟨v, rfl⟩ := hs.crs e he
      refine ⟨setCrs d1 v, rfl, ?_⟩
      rw [setCrs, put_entry_same]; simp [Store.entry, he]
  obtain ⟨d2, k1, k2⟩ := hcrs
  have o2 := fun j hj => importKey_other _ _ _ _ j k1 hj
  obtain ⟨q1, q2, q3⟩ := importKey_props _ _ _ _ k1
  have hmask : ∃ d3, importKey src d2 "spatial_mask" = .ok d3
      ∧ (d3.entry "spatial_mask").var.getD none = (src.entry "spatial_mask").var.getD none := by
    rw [importKey]
    have m2 := o2 "spatial_mask" (by decide)
    cases he : src.entries "spatial_mask" with
    | none => exact ⟨d2, rfl, by rw [m2.1, m1.1]; simp [Store.entry, hd, he]⟩
    | some e =>
      rcases hs.mask e he with rfl | ⟨v, rfl⟩
      · refine ⟨d2, rfl, ?_⟩
        rw [m2.1, m1.1]; simp [Store.entry, hd, he]
      · refine ⟨setMask d2 v noAttrs noAttrs, rfl, ?_⟩
        rw [setMask, put_entry_same]; simp [Store.entry, he]
  obtain ⟨d3, l1, l2⟩ := hmask
  have o3 := fun j hj => importKey_other _ _ _ _ j l1 hj
  obtain ⟨r1, r2, r3⟩ := importKey_props _ _ _ _ l1
  refine ⟨d3, ?_, ?_, ?_, l2, by rw [r1, q1, h4], by rw [r2, q2, h5], by rw [r3, q3, h6]⟩
  · rw [List.foldlM_append, h1]
    show (["crs", "spatial_mask"] : List String).foldlM (importKey src) d1 = _
    rw [List.foldlM_cons, k1]
    show (["spatial_mask"] : List String).foldlM (importKey src) d2 = _
    rw [List.foldlM_cons, l1]; rfl
  · intro k hk
    obtain ⟨_, n1, n2⟩ := coord_not_special k hk
    rw [(o3 k n2).1, (o2 k n1).1]; exact h2 k hk
  · rw [(o3 "crs" (by decide)).1]; exact k2

theorem importStore_ok (known : String → Bool) (s : Store) (hs : Importable known s) :
    ∃ s', importStore known s = .ok s' ∧ SameStore s' s := by
  have build : ∀ (d : Store), (∀ k, d.entries k = none) → d.driver = s.driver → d.abstraction = none →
      d.isomorphic = none →
      ∃ s', (coordKeys ++ ["crs", "spatial_mask"]).foldlM (importKey s) d = .ok s' ∧ SameStore s' s := by
    intro d hd h1 h2 h3
    obtain ⟨d', g1, g2, g3, g4, g5, g6, g7⟩ := import_all known s hs d hd
    refine ⟨d', g1, ⟨g2, g3, g4, ?_, ?_, ?_⟩⟩
    · simp [getDriver, g5, h1]
    · rw [g6, h2, hs.abstraction]
    · rw [g7, h3, hs.isomorphic]
  rw [importStore]
  simp only [hs.topology, Bool.false_eq_true, if_false, hs.abstraction, hs.isomorphic, Option.isSome_none, or_self]
  cases hd : s.driver with
  | none => exact build {} (fun _ => rfl) hd.symm rfl rfl
  | some d =>
    simp only [hs.driver d hd, if_true]
    exact build { driver := some d } (fun _ => rfl) hd.symm rfl rfl

mutual
theorem fromDict_ok (known : String → Bool) : ∀ (m : DMap), AllImportable known m →
    ∃ m', fromDict known m = .ok m' ∧ SameMap m' m
  | .mk s gs, h => by
    obtain ⟨s', h1, h2⟩ := importStore_ok known s h.1
    obtain ⟨gs', g1, g2⟩ := fromGroups_ok known gs h.2
    exact ⟨.mk s' gs', by rw [fromDict, h1]; simp only [g1], h2, g2⟩
theorem fromGroups_ok (known : String → Bool) : ∀ (gs : List (String × DMap)), AllGroupsImportable known gs →
    ∃ gs', fromGroups known gs = .ok gs' ∧ SameGroups gs' gs
  | [], _ => ⟨[], rfl, trivial⟩
  | (n, m) :: rest, h => by
    obtain ⟨m', h1, h2⟩ := fromDict_ok known m h.1
    obtain ⟨rest', g1, g2⟩ := fromGroups_ok known rest h.2
    exact ⟨(n, m') :: rest', by rw [fromGroups, h1]; simp only [g1], rfl, h2, g2⟩
end

theorem importable_put_coord (known : String → Bool) (s : Store) (h : Importable known s) (k : String)
    (hk : k ∈ coordKeys) (e : Entry) (he : EntryOk e) : Importable known (s.put k e) := by
  obtain ⟨_, n1, n2⟩ := coord_not_special k hk
  refine ⟨h.topology, h.abstraction, h.isomorphic, h.driver, ?_, ?_, ?_⟩
  · intro j hj e' he'
    simp only [Store.put] at he'
    split at he'
    · next hjk => simp only [Option.some.injEq] at he'; subst he'; subst hjk; exact he
    · exact h.coords j hj e' he'
  · intro e' he'
    simp only [Store.put, if_neg (fun x => n1 (Eq.symm x))] at he'
    exact h.crs e' he'
  · intro e' he'
    simp only [Store.put, if_neg (fun x => n2 (Eq.symm x))] at he'
    exact h.mask e' he'

theorem entryOk_entry (known : String → Bool) (s : Store) (h : Importable known s) (k : String) (hk : k ∈ coordKeys) :
    EntryOk { s.entry k with var := some ((s.entry k).var.getD none) } := by
  cases he : s.entries k with
  | none => right; simp [Store.entry, he, readingOf]
  | some e =>
    have : s.entry k = e := by simp [Store.entry, he]
    rw [this]
    rcases h.coords k hk e he with ⟨n, b, dd, a, v1, v2, v3, v4⟩ | ⟨v1, v2, v3⟩
    · left; exact ⟨n, b, dd, a, by simp [v1], v2, v3, v4⟩
    · right
      refine ⟨by simp [v1], ?_, v3⟩
      simp only [readingOf, v1, Option.getD_some] at v2 ⊢
      exact v2

theorem importable_drop (known : String → Bool) (s : Store) (h : Importable known s) (k : String)
    (hk : k ∈ coordKeys) : Importable known (s.drop k) := by
  obtain ⟨_, n1, n2⟩ := coord_not_special k hk
  refine ⟨h.topology, h.abstraction, h.isomorphic, h.driver, ?_, ?_, ?_⟩
  · intro j hj e' he'
    simp only [Store.drop] at he'
    split at he'
    · simp at he'
    · exact h.coords j hj e' he'
  · intro e' he'
    simp only [Store.drop, if_neg (fun x => n1 (Eq.symm x))] at he'
    exact h.crs e' he'
  · intro e' he'
    simp only [Store.drop, if_neg (fun x => n2 (Eq.symm x))] at he'
    exact h.mask e' he'

theorem step_importable (known : String → Bool) (s : Store) (h : Importable known s) (op : Op)
    (hop : KeepsImportable op) (hok : Succeeds known s op) : Importable known (step known s op) := by
  cases op with
  | getVariable k =>
    simp only [step, getVariable, checkKey_coord k hop]
    exact importable_put_coord known s h k hop _ (entryOk_entry known s h k hop)
  | getBounds k => exact absurd hop id
  | getDimension k => exact absurd hop id
  | getAttrs k => exact absurd hop id
  | getCrs =>
    refine ⟨h.topology, h.abstraction, h.isomorphic, h.driver, ?_, ?_, ?_⟩
    · intro j hj e' he'
      have := (coord_not_special j hj).2.1
      simp only [step, getCrs, Store.put, if_neg this] at he'
      exact h.coords j hj e' he'
    · intro e' he'
      simp only [step, getCrs, Store.put, if_true, Option.some.injEq] at he'
      subst he'
      cases hc : s.entries "crs" with
      | none => exact ⟨none, by simp [Store.entry, hc]⟩
      | some e => obtain ⟨v, rfl⟩ := h.crs e hc; exact ⟨v, by simp [Store.entry, hc]⟩
    · intro e' he'
      have hne : ("spatial_mask" : String) ≠ "crs" := by decide
      simp only [step, getCrs, Store.put, if_neg hne] at he'
      exact h.mask e' he'
  | getMask =>
    refine ⟨h.topology, h.abstraction, h.isomorphic, h.driver, ?_, ?_, ?_⟩
    · intro j hj e' he'
      have := (coord_not_special j hj).2.2
      simp only [step, getMask, Store.put, if_neg this] at he'
      exact h.coords j hj e' he'
    · intro e' he'
      have hne : ("crs" : String) ≠ "spatial_mask" := by decide
      simp only [step, getMask, Store.put, if_neg hne] at he'
      exact h.crs e' he'
    · intro e' he'
      simp only [step, getMask, Store.put, if_true, Option.some.injEq] at he'
      subst he'
      cases hc : s.entries "spatial_mask" with
      | none => left; simp [Store.entry, hc]
      | some e => rcases h.mask e hc with rfl | ⟨v, rfl⟩
                  · left; simp [Store.entry, hc]
                  · right; exact ⟨v, by simp [Store.entry, hc]⟩
  | setVariable k v a =>
    simp only [step]
    simp only [Succeeds] at hok
    rw [setVariable.eq_def] at hok ⊢
    split at hok
    · simp at hok
    · next h1 =>
      split at hok
      · simp at hok
      · next h2 =>
        split at hok
        · simp at hok
        · next h3 =>
          rw [if_neg h1, if_neg h2, if_neg h3]
          have hk := Classical.not_not.1 h3
          split
          · exact importable_drop known s h k hk
          · split
            · next hd => simp only [hd] at hok; simp at hok
            · exact importable_put_coord known s h k hk _ (Or.inl ⟨_, _, _, _, rfl, rfl, rfl, rfl⟩)
  | setBounds k b =>
    simp only [step]
    simp only [Succeeds] at hok
    rw [setBounds] at hok ⊢
    split at hok
    · simp at hok
    · next h1 =>
      rw [if_neg h1]
      split at hok
      · simp at hok
      · simp at hok
      · next n hv =>
        simp only [hv]
        cases he : s.entries k with
        | none => simp [Store.entry, he] at hv
        | some e =>
          have hse : s.entry k = e := by simp [Store.entry, he]
          rw [hse] at hv ⊢
          apply importable_put_coord known s h k hop
          rcases h.coords k hop e he with ⟨n, b', dd, a, v1, v2, v3, v4⟩ | ⟨v1, v2, v3⟩
          · exact Or.inl ⟨_, some b, dd, a, rfl, rfl, v3, v4⟩
          · rw [v1] at hv; simp at hv
  | setCrs v =>
    refine ⟨h.topology, h.abstraction, h.isomorphic, h.driver, ?_, ?_, ?_⟩
    · intro j hj e' he'
      have := (coord_not_special j hj).2.1
      simp only [step, setCrs, Store.put, if_neg this] at he'
      exact h.coords j hj e' he'
    · intro e' he'
      simp only [step, setCrs, Store.put, if_true, Option.some.injEq] at he'
      subst he'
      cases hc : s.entries "crs" with
      | none => exact ⟨some v, by simp [Store.entry, hc]⟩
      | some e => obtain ⟨w, rfl⟩ := h.crs e hc; exact ⟨some v, by simp [Store.entry, hc]⟩
    · intro e' he'
      have hne : ("spatial_mask" : String) ≠ "crs" := by decide
      simp only [step, setCrs, Store.put, if_neg hne] at he'
      exact h.mask e' he'
  | setDriver d =>
    simp only [Succeeds] at hok
    simp only [step, setDriver, if_pos hok]
    exact ⟨h.topology, h.abstraction, h.isomorphic, by intro d' hd'; simp at hd'; rw [← hd']; exact hok,
      h.coords, h.crs, h.mask⟩
  | setMask v va a =>
    obtain ⟨rfl, rfl⟩ := hop
    refine ⟨h.topology, h.abstraction, h.isomorphic, h.driver, ?_, ?_, ?_⟩
    · intro j hj e' he'
      have := (coord_not_special j hj).2.2
      simp only [step, setMask, Store.put, if_neg this] at he'
      exact h.coords j hj e' he'
    · intro e' he'
      have hne : ("crs" : String) ≠ "spatial_mask" := by decide
      simp only [step, setMask, Store.put, if_neg hne] at he'
      exact h.crs e' he'
    · intro e' he'
      simp only [step, setMask, Store.put, if_true, Option.some.injEq, updateAttrs_none] at he'
      subst he'
      right
      cases hc : s.entries "spatial_mask" with
      | none => exact ⟨some v, by simp [Store.entry, hc]⟩
      | some e => rcases h.mask e hc with rfl | ⟨w, rfl⟩
                  · exact ⟨some v, by simp [Store.entry, hc]⟩
                  · exact ⟨some v, by simp [Store.entry, hc]⟩
  | setAbstraction a => exact absurd hop id
  | setIsomorphic b => exact absurd hop id

theorem groups_mk (o : Store) (g : List (String × DMap)) : (DMap.mk o g).groups = g := rfl

theorem findGroup_append_new (gs : List (String × DMap)) (n : String) (m : DMap) (h : findGroup gs n = none) (j : String) :
    findGroup (gs ++ [(n, m)]) j = if j = n then some m else findGroup gs j := by
  rw [findGroup] at h
  simp only [findGroup, List.find?_append]
  by_cases hj : j = n
  · subst hj
    have : gs.find? (fun p => p.1 == j) = none := by simpa using h
    simp [this]
  · simp [hj]
    cases gs.find? (fun p => p.1 == j) with
    | none => simp; exact fun e => hj e.symm
    | some p => simp

end Ocgis.Props
