import Verif.Spec.CrsMeta
/-!
# Lemmas
-/
namespace Ocgis.Props
open Ocgis Ocgis.CrsMeta Ocgis.Spec

theorem cfName_eq (k : Kind) : cfName k = gmName k := by cases k <;> rfl

theorem gmName_inj {k k' : Kind} (h : gmName k = gmName k') : k = k' := by
  cases k <;> cases k' <;> first | rfl | exact absurd h (by decide)

theorem usual_eq (k : Kind) : usualNames k = fuzzyNames k := by cases k <;> rfl

theorem crsLookup_mem {β : Type} {l : List (String × β)} {k : String} {v : β} (h : l.lookup k = some v) : (k, v) ∈ l := by
  induction l with
  | nil => simp at h
  | cons a t ih =>
    obtain ⟨a1, a2⟩ := a
    rw [List.lookup_cons] at h
    cases hk : k == a1 with
    | true =>
      rw [hk] at h
      have : k = a1 := by simpa using hk
      simp at h
      subst this; subst h; simp
    | false =>
      rw [hk] at h
      exact List.mem_cons_of_mem _ (ih h)

theorem crsLookup_of_mem {β : Type} {l : List (String × β)} (hn : (l.map Prod.fst).Nodup) {k : String} {v : β} (h : (k, v) ∈ l) :
    l.lookup k = some v := by
  induction l with
  | nil => simp at h
  | cons a t ih =>
    obtain ⟨a1, a2⟩ := a
    simp only [List.map_cons, List.nodup_cons] at hn
    rw [List.lookup_cons]
    rcases List.mem_cons.1 h with h' | h'
    · injection h' with h1 h2
      subst h1; subst h2; simp
    · have : k ≠ a1 := by
        intro he
        subst he
        exact hn.1 (List.mem_map_of_mem (f := Prod.fst) (by assumption : (k, v) ∈ t))
      have h2 : (k == a1) = false := by simpa using this
      rw [h2]
      exact ih hn.2 h'

theorem crsLookup_none {β : Type} {l : List (String × β)} {k : String} : l.lookup k = none ↔ ∀ v, (k, v) ∉ l := by
  constructor
  · intro h v hm
    induction l with
    | nil => simp at hm
    | cons a t ih =>
      obtain ⟨a1, a2⟩ := a
      rw [List.lookup_cons] at h
      cases hk : k == a1 with
      | true => rw [hk] at h; simp at h
      | false =>
        rw [hk] at h
        rcases List.mem_cons.1 hm with hm | hm
        · injection hm with h1 h2
          subst h1; simp at hk
        · exact ih h hm
  · intro h
    cases hl : l.lookup k with
    | none => rfl
    | some v => exact absurd (crsLookup_mem hl) (h v)

/-- The grid mapping variable of a variable is in the file. -/
theorem mappingOf_mem {k : Kind} {va : Attrs} {vars : Vars} {g : String} {as : Attrs} (h : mappingOf k va vars = some (g, as)) :
    (g, as) ∈ vars := by
  unfold mappingOf at h
  split at h
  · rename_i r hr
    injection h with h
    subst h
    split at hr
    · rename_i g' _
      cases hl : vars.lookup g' with
      | none => simp [hl] at hr
      | some a =>
        simp [hl] at hr
        obtain ⟨h1, h2⟩ := hr
        subst h1; subst h2
        exact crsLookup_mem hl
    · cases hr
  · exact List.mem_of_find?_eq_some h

/-- What is made of the grid mapping variable. -/
def matched (k : Kind) (g : String) (as : Attrs) (vars : Vars) : Res Crs :=
  if k = .spherical then .ok cfSpherical
  else if k = .rotated then construct k g (paramsFrom k as none vars) none none
  else
    match withStandardName "projection_x_coordinate" vars, withStandardName "projection_y_coordinate" vars with
    | some px, some py => construct k g (paramsFrom k as (some px) vars) (some px) (some py)
    | _, _ => .error .projectionCoordinateNotFound

/-- A class other than the spherical one gives nothing, or what is made of the grid mapping variable. -/
theorem load_cases {k : Kind} (hk : k ≠ .spherical) (va : Attrs) (vars : Vars) :
    (load k va vars = .ok none ∧ ∀ g as, mappingOf k va vars = some (g, as) → as.lookup "grid_mapping_name" ≠ some (.text (gmName k))) ∨
    ∃ g as, mappingOf k va vars = some (g, as) ∧ as.lookup "grid_mapping_name" = some (.text (gmName k)) ∧
      load k va vars = (matched k g as vars).map some := by
  unfold load
  rw [if_neg hk]
  cases hm : mappingOf k va vars with
  | none => left; exact ⟨rfl, fun _ _ h => by cases h⟩
  | some ga =>
    obtain ⟨g, as⟩ := ga
    by_cases hg : as.lookup "grid_mapping_name" = some (.text (gmName k))
    · right
      refine ⟨g, as, rfl, hg, ?_⟩
      simp only [if_pos hg]
      unfold matched
      rw [if_neg hk]
      by_cases hr : k = .rotated
      · rw [if_pos hr, if_pos hr]
      · rw [if_neg hr, if_neg hr]
        cases withStandardName "projection_x_coordinate" vars <;> cases withStandardName "projection_y_coordinate" vars <;> rfl
    · left
      refine ⟨by simp only [if_neg hg], ?_⟩
      intro g' as' h
      injection h with h
      injection h with h1 h2
      subst h1; subst h2
      exact hg

/-- With one grid mapping a variable gives nothing, or what is made of it. -/
theorem load_one {vars : Vars} {k : Kind} {g : String} {as : Attrs} (hs : OneMapping vars k g as) {v : String} {va : Attrs}
    (hv : (v, va) ∈ vars) (k' : Kind) : load k' va vars = .ok none ∨ (k' = k ∧ load k' va vars = (matched k g as vars).map some) := by
  have hlook : vars.lookup g = some as := crsLookup_of_mem hs.names hs.defines.1
  by_cases hsp : k' = .spherical
  · subst hsp
    unfold load
    simp only [if_pos]
    by_cases hc : va.lookup "grid_mapping" = some (.text (gmName .spherical)) ∨
        va.lookup "grid_mapping_name" = some (.text (gmName .spherical))
    · right
      rw [if_pos hc]
      have hk : Kind.spherical = k := by
        rcases hc with hc | hc
        · have h1 := hs.refers v va _ hv hc
          rcases hs.notSpherical with h2 | h2
          · exact h2.symm
          · exact absurd h1.symm h2
        · have h1 := hs.only .spherical v va ⟨hv, hc⟩
          subst h1
          have h2 := crsLookup_of_mem hs.names hv
          rw [hlook] at h2
          injection h2 with h2
          subst h2
          have h3 := hs.defines.2
          rw [hc, cfName_eq] at h3
          injection h3 with h3
          injection h3 with h3
          exact gmName_inj h3
      subst hk
      exact ⟨rfl, rfl⟩
    · left
      rw [if_neg hc]
  · rcases load_cases hsp va vars with ⟨h, _⟩ | ⟨g', as', hm, hg, hl⟩
    · exact Or.inl h
    · right
      have hmem := mappingOf_mem hm
      have h1 := hs.only k' g' as' ⟨hmem, by rw [cfName_eq]; exact hg⟩
      subst h1
      have h2 := crsLookup_of_mem hs.names hmem
      rw [hlook] at h2
      injection h2 with h2
      subst h2
      have h3 := hs.defines.2
      rw [hg, cfName_eq] at h3
      injection h3 with h3
      injection h3 with h3
      have := gmName_inj h3
      subst this
      exact ⟨rfl, hl⟩

theorem loadFirst_one {vars : Vars} {k : Kind} {g : String} {as : Attrs} (hs : OneMapping vars k g as) {v : String} {va : Attrs}
    (hv : (v, va) ∈ vars) (ks : List Kind) :
    (loadFirst va vars ks = .ok none ∧ ∀ k' ∈ ks, load k' va vars = .ok none) ∨ loadFirst va vars ks = (matched k g as vars).map some := by
  induction ks with
  | nil => left; exact ⟨rfl, fun _ h => by cases h⟩
  | cons k' rest ih =>
    unfold loadFirst
    rcases load_one hs hv k' with h | ⟨_, h⟩
    · rw [h]
      rcases ih with ⟨h1, h2⟩ | h1
      · left
        refine ⟨h1, ?_⟩
        intro k2 hk2
        rcases List.mem_cons.1 hk2 with h3 | h3
        · rw [h3]; exact h
        · exact h2 k2 h3
      · right; exact h1
    · right
      rw [h]
      cases matched k g as vars <;> rfl

/-- Some variable gives what is made of the grid mapping. -/
theorem load_found {vars : Vars} {k : Kind} {g : String} {as : Attrs} (hs : OneMapping vars k g as) :
    ∃ v va, (v, va) ∈ vars ∧ loadFirst va vars kinds = (matched k g as vars).map some := by
  have hlook : vars.lookup g = some as := crsLookup_of_mem hs.names hs.defines.1
  have hall : ∀ k, k ∈ kinds := by intro k; cases k <;> decide
  by_cases hsp : k = .spherical
  · subst hsp
    refine ⟨g, as, hs.defines.1, ?_⟩
    rcases loadFirst_one hs hs.defines.1 kinds with ⟨_, h⟩ | h
    · exfalso
      have h1 := h .spherical (hall _)
      unfold load at h1
      rw [if_pos rfl, if_pos (Or.inr (show _ = some (Val.text (gmName .spherical)) from hs.defines.2))] at h1
      cases h1
    · exact h
  · have key : ∀ v va, (v, va) ∈ vars → mappingOf k va vars = some (g, as) →
        loadFirst va vars kinds = (matched k g as vars).map some := by
      intro v va hv hm
      rcases loadFirst_one hs hv kinds with ⟨_, h⟩ | h
      · exfalso
        have h1 := h k (hall _)
        rcases load_cases hsp va vars with ⟨_, h2⟩ | ⟨g', as', hm', _, hl⟩
        · exact h2 g as hm (by rw [← cfName_eq]; exact hs.defines.2)
        · rw [hl] at h1
          cases hx : matched k g' as' vars with
          | error e => rw [hx] at h1; cases h1
          | ok c => rw [hx] at h1; cases h1
      · exact h
    rcases hs.found with ⟨v, va, hv, hr⟩ | ⟨hu, hno, huniq⟩
    · refine ⟨v, va, hv, key v va hv ?_⟩
      unfold mappingOf
      simp [hr, hlook]
    · refine ⟨g, as, hs.defines.1, key g as hs.defines.1 ?_⟩
      unfold mappingOf
      simp only [hno]
      cases hf : vars.find? fun kv => (fuzzyNames k).contains kv.1 with
      | none =>
        exfalso
        have := List.find?_eq_none.1 hf (g, as) hs.defines.1
        rw [usual_eq] at hu
        simp [hu] at this
      | some w =>
        obtain ⟨w, wa⟩ := w
        have hw := List.mem_of_find?_eq_some hf
        have hp := List.find?_some hf
        have h1 : w = g := huniq w wa hw (by rw [usual_eq]; simpa using hp)
        subst h1
        have h2 := crsLookup_of_mem hs.names hw
        rw [hlook] at h2
        injection h2 with h2
        rw [h2]

theorem loadAll_one {vars : Vars} {k : Kind} {g : String} {as : Attrs} (hs : OneMapping vars k g as) :
    ∀ l : Vars, (∀ kv ∈ l, kv ∈ vars) →
      ((∀ c, matched k g as vars = .ok c → ∃ n, loadAll vars l = .ok (List.replicate n c) ∧
          ((∃ kv ∈ l, loadFirst kv.2 vars kinds = .ok (some c)) → 0 < n)) ∧
       (∀ e, matched k g as vars = .error e → loadAll vars l = .ok [] ∨ loadAll vars l = .error e) ∧
       (∀ e, matched k g as vars = .error e → (∃ kv ∈ l, loadFirst kv.2 vars kinds = .error e) → loadAll vars l = .error e)) := by
  intro l
  induction l with
  | nil =>
    intro _
    refine ⟨fun c _ => ⟨0, rfl, ?_⟩, fun e _ => Or.inl rfl, ?_⟩
    · rintro ⟨kv, hkv, _⟩; cases hkv
    · rintro e _ ⟨kv, hkv, _⟩; cases hkv
  | cons kv rest ih =>
    intro hsub
    have ih := ih (fun x hx => hsub x (List.mem_cons_of_mem _ hx))
    obtain ⟨ih1, ih2, ih3⟩ := ih
    have h0 := loadFirst_one hs (v := kv.1) (va := kv.2) (hsub kv (by simp)) kinds
    refine ⟨?_, ?_, ?_⟩
    · intro c hc
      obtain ⟨n, hn, hpos⟩ := ih1 c hc
      unfold loadAll
      rcases h0 with ⟨h0, _⟩ | h0
      · rw [h0]
        refine ⟨n, hn, ?_⟩
        rintro ⟨kv', hkv', hl⟩
        rcases List.mem_cons.1 hkv' with h | h
        · subst h; rw [h0] at hl; cases hl
        · exact hpos ⟨kv', h, hl⟩
      · rw [hc] at h0
        have h0' : loadFirst kv.2 vars kinds = .ok (some c) := h0
        rw [h0', hn]
        exact ⟨n + 1, by rw [List.replicate_succ], fun _ => Nat.succ_pos _⟩
    · intro e he
      unfold loadAll
      rcases h0 with ⟨h0, _⟩ | h0
      · rw [h0]; exact ih2 e he
      · rw [he] at h0
        have h0' : loadFirst kv.2 vars kinds = .error e := h0
        rw [h0']; right; rfl
    · rintro e he ⟨kv', hkv', hl⟩
      unfold loadAll
      rcases h0 with ⟨h0, _⟩ | h0
      · rw [h0]
        rcases List.mem_cons.1 hkv' with h | h
        · subst h; rw [h0] at hl; cases hl
        · exact ih3 e he ⟨kv', h, hl⟩
      · rw [he] at h0
        have h0' : loadFirst kv.2 vars kinds = .error e := h0
        rw [h0']

theorem getCrsVariable_one (G : Gdal) {vars : Vars} {k : Kind} {g : String} {as : Attrs} (hs : OneMapping vars k g as) :
    getCrs G true vars = matched k g as vars := by
  obtain ⟨v, va, hv, hl⟩ := load_found hs
  have h := loadAll_one hs vars (fun _ h => h)
  unfold getCrs getCrsVariable
  cases hm : matched k g as vars with
  | error e =>
    rw [hm] at hl
    rw [h.2.2 e hm ⟨(v, va), hv, hl⟩]
  | ok c =>
    rw [hm] at hl
    obtain ⟨n, hn, hpos⟩ := h.1 c hm
    have hp := hpos ⟨(v, va), hv, hl⟩
    rw [hn]
    cases n with
    | zero => omega
    | succ n =>
      rw [List.replicate_succ]
      simp

theorem lookup_dropAttr {key p : String} (h : p ≠ key) (as : Attrs) : (dropAttr key as).lookup p = as.lookup p := by
  unfold dropAttr
  induction as with
  | nil => rfl
  | cons a t ih =>
    obtain ⟨a1, a2⟩ := a
    by_cases ha : a1 = key
    · have hne : (p == a1) = false := by simpa [ha] using h
      rw [List.lookup_cons, hne]
      simpa [ha] using ih
    · rw [List.filter_cons_of_pos (by simpa using ha), List.lookup_cons, List.lookup_cons, ih]

theorem lookup_dropAttr_self (key : String) (as : Attrs) : (dropAttr key as).lookup key = none := by
  rw [crsLookup_none]
  intro v hm
  simp [dropAttr] at hm

theorem lookup_setAttr_ne {key p : String} (h : p ≠ key) (v : Val) (as : Attrs) : (setAttr key v as).lookup p = as.lookup p := by
  unfold setAttr
  have hne : (p == key) = false := by simpa using h
  split
  · induction as with
    | nil => rfl
    | cons a t ih =>
      obtain ⟨a1, a2⟩ := a
      rw [List.map_cons, List.lookup_cons]
      by_cases ha : a1 = key
      · subst ha
        simp only [if_true, List.lookup_cons, hne]
        by_cases ht : (List.lookup a1 t).isSome
        · exact ih ht
        · have : t.map (fun kv => if kv.1 = a1 then (a1, v) else kv) = t := by
            have hnone : List.lookup a1 t = none := Option.not_isSome_iff_eq_none.1 ht
            rw [crsLookup_none] at hnone
            conv => rhs; rw [← List.map_id t]
            apply List.map_congr_left
            intro kv hkv
            have : kv.1 ≠ a1 := by
              intro he
              apply hnone kv.2
              rw [← he]
              exact hkv
            simp [this]
          rw [this]
      · simp only [ha, if_false]
        rename_i hs
        by_cases hp : p = a1
        · subst hp; simp
        · have : (p == a1) = false := by simpa using hp
          simp only [List.lookup_cons, this]
          apply ih
          have h2 : (key == a1) = false := by simpa using fun he => ha he.symm
          simpa [List.lookup_cons, h2] using hs
  · induction as with
    | nil => simp [List.lookup_cons, hne]
    | cons a t ih =>
      rename_i hs
      obtain ⟨a1, a2⟩ := a
      rw [List.cons_append, List.lookup_cons, List.lookup_cons]
      cases hp : p == a1 with
      | true => rfl
      | false =>
        apply ih
        intro hs'
        apply hs
        rw [List.lookup_cons]
        split
        · rfl
        · exact hs'

theorem lookup_setAttr_self (key : String) (v : Val) (as : Attrs) : (setAttr key v as).lookup key = some v := by
  unfold setAttr
  split
  · rename_i hs
    induction as with
    | nil => simp at hs
    | cons a t ih =>
      obtain ⟨a1, a2⟩ := a
      rw [List.map_cons]
      by_cases ha : a1 = key
      · simp [ha]
      · have h2 : (key == a1) = false := by simpa using fun he => ha he.symm
        simp only [ha, if_false, List.lookup_cons, h2]
        apply ih
        simpa [List.lookup_cons, h2] using hs
  · rename_i hs
    induction as with
    | nil => simp
    | cons a t ih =>
      obtain ⟨a1, a2⟩ := a
      rw [List.cons_append, List.lookup_cons]
      cases hp : key == a1 with
      | true => rw [List.lookup_cons, hp] at hs; simp at hs
      | false =>
        apply ih
        simpa [List.lookup_cons, hp] using hs

theorem lookup_append_some {l m : Attrs} {p : String} {v : Val} (h : l.lookup p = some v) : (l ++ m).lookup p = some v := by
  induction l with
  | nil => simp at h
  | cons a t ih =>
    obtain ⟨a1, a2⟩ := a
    rw [List.cons_append, List.lookup_cons]
    rw [List.lookup_cons] at h
    split at h
    · exact h
    · exact ih h

theorem lookup_append_none {l m : Attrs} {p : String} (h : l.lookup p = none) : (l ++ m).lookup p = m.lookup p := by
  induction l with
  | nil => rfl
  | cons a t ih =>
    obtain ⟨a1, a2⟩ := a
    rw [List.cons_append, List.lookup_cons]
    rw [List.lookup_cons] at h
    split at h
    · cases h
    · exact ih h

theorem parallels_eq (v : Val) : standardParallels v = parallels v := by
  cases v with
  | nums l =>
    unfold standardParallels parallels
    simp only
    apply List.ext_getElem
    · simp
    · intro i h1 h2
      simp
  | _ => rfl

/-- The constructor from its parameters. -/
theorem construct_value (k : Kind) (hk : k ≠ .spherical) (name : String) (ps : Attrs) (px py : Option String)
    (hneed : ∀ p ∈ Needs k, (ps.lookup p).isSome) (hu : k = .lambert → (ps.lookup "units").isSome) :
    construct k name ps px py =
      .ok { sys := .cf k, name := name, value := projOf k (fun p => ps.lookup p) ((ps.lookup "units").getD .none),
            params := withExtras k ps, px := px, py := py } := by
  have get : ∀ p ∈ Needs k, ∃ v, ps.lookup p = some v := fun p hp => Option.isSome_iff_exists.1 (hneed p hp)
  cases k with
  | spherical => exact absurd rfl hk
  | albers =>
    obtain ⟨v1, h1⟩ := get "standard_parallel" (by decide)
    obtain ⟨v2, h2⟩ := get "longitude_of_central_meridian" (by decide)
    obtain ⟨v3, h3⟩ := get "latitude_of_projection_origin" (by decide)
    obtain ⟨v4, h4⟩ := get "false_easting" (by decide)
    obtain ⟨v5, h5⟩ := get "false_northing" (by decide)
    simp [construct, withExtras, mapParameters, projEntries, projEntry, h1, h2, h3, h4, h5, projOf, projName, parallels_eq]
  | lambert =>
    obtain ⟨v1, h1⟩ := get "standard_parallel" (by decide)
    obtain ⟨v2, h2⟩ := get "longitude_of_central_meridian" (by decide)
    obtain ⟨v3, h3⟩ := get "latitude_of_projection_origin" (by decide)
    obtain ⟨v6, h6⟩ := Option.isSome_iff_exists.1 (hu rfl)
    cases h4 : ps.lookup "false_easting" <;> cases h5 : ps.lookup "false_northing" <;>
      simp [construct, withExtras, mapParameters, projEntries, projEntry, h1, h2, h3, h4, h5, h6, projOf, projName, parallels_eq,
        mapDefaults, List.lookup_cons]
  | polar =>
    obtain ⟨v1, h1⟩ := get "standard_parallel" (by decide)
    obtain ⟨v2, h2⟩ := get "latitude_of_projection_origin" (by decide)
    obtain ⟨v3, h3⟩ := get "straight_vertical_longitude_from_pole" (by decide)
    obtain ⟨v4, h4⟩ := get "false_easting" (by decide)
    obtain ⟨v5, h5⟩ := get "false_northing" (by decide)
    cases h6 : ps.lookup "scale_factor" with
    | some v6 => simp [construct, withExtras, mapParameters, projEntries, projEntry, h1, h2, h3, h4, h5, h6, projOf, projName]
    | none =>
      simp [construct, withExtras, mapParameters, projEntries, projEntry, lookup_append_some h1, lookup_append_some h2,
        lookup_append_some h3, lookup_append_some h4, lookup_append_some h5, lookup_append_none h6, h1, h2, h3, h4, h5, h6, projOf, projName]
  | oblique =>
    obtain ⟨v1, h1⟩ := get "latitude_of_projection_origin" (by decide)
    obtain ⟨v2, h2⟩ := get "longitude_of_central_meridian" (by decide)
    obtain ⟨v3, h3⟩ := get "scale_factor_at_central_meridian" (by decide)
    obtain ⟨v4, h4⟩ := get "false_easting" (by decide)
    obtain ⟨v5, h5⟩ := get "false_northing" (by decide)
    cases h6 : ps.lookup "alpha" with
    | some v6 => simp [construct, withExtras, mapParameters, projEntries, projEntry, h1, h2, h3, h4, h5, h6, projOf, projName]
    | none =>
      simp [construct, withExtras, mapParameters, projEntries, projEntry, lookup_append_some h1, lookup_append_some h2,
        lookup_append_some h3, lookup_append_some h4, lookup_append_some h5, lookup_append_none h6, h1, h2, h3, h4, h5, h6, projOf, projName]
  | rotated =>
    obtain ⟨v1, h1⟩ := get "grid_north_pole_longitude" (by decide)
    obtain ⟨v2, h2⟩ := get "grid_north_pole_latitude" (by decide)
    simp [construct, withExtras, mapParameters, projEntries, projEntry, h1, h2, projOf, projName]

/-- A missing parameter is an error. -/
theorem projEntries_missing (k : Kind) (ps : Attrs) {cf pk : String} (hps : ps.lookup cf = none) (hd : (mapDefaults k).lookup cf = none) :
    ∀ l : List (String × String), (cf, pk) ∈ l → projEntries k ps l = .error .keyError := by
  have herr : ∀ cf' pk' e, projEntry k ps cf' pk' = .error e → e = .keyError := by
    intro cf' pk' e h
    unfold projEntry at h
    split at h
    · split at h
      · cases h
      · split at h <;> cases h
    · split at h
      · injection h with h; exact h.symm
      · split at h
        · cases h
        · injection h with h; exact h.symm
  intro l
  induction l with
  | nil => intro h; cases h
  | cons a t ih =>
    obtain ⟨c, q⟩ := a
    intro hm
    unfold projEntries
    cases he : projEntry k ps c q with
    | error e => rw [herr _ _ _ he]
    | ok a =>
      rcases List.mem_cons.1 hm with h | h
      · injection h with h1 h2
        subst h1; subst h2
        exfalso
        unfold projEntry at he
        rw [hps] at he
        simp only [hd] at he
        split at he <;> cases he
      · simp only [ih h]

theorem needs_mem (k : Kind) (p : String) (hp : p ∈ Needs k) :
    (∃ q, (p, q) ∈ mapParameters k) ∧ (mapDefaults k).lookup p = none ∧ p ≠ "scale_factor" ∧ p ≠ "alpha" ∧ p ≠ "grid_mapping_name" ∧
      p ≠ "units" := by
  cases k <;> simp only [Needs, List.mem_cons, List.not_mem_nil, or_false] at hp <;>
    (first
      | exact hp.elim
      | (rcases hp with h | h | h | h | h <;> subst h <;> refine ⟨⟨_, by simp [mapParameters]; try rfl⟩, rfl, by decide, by decide, by decide, by decide⟩)
      | (rcases hp with h | h | h <;> subst h <;> refine ⟨⟨_, by simp [mapParameters]; try rfl⟩, rfl, by decide, by decide, by decide, by decide⟩)
      | (rcases hp with h | h <;> subst h <;> refine ⟨⟨_, by simp [mapParameters]; try rfl⟩, rfl, by decide, by decide, by decide, by decide⟩))

theorem firstWith_iff (sn : String) (vars : Vars) (v : String) : FirstWith sn vars v ↔ withStandardName sn vars = some v := by
  unfold FirstWith withStandardName
  induction vars with
  | nil =>
    simp
  | cons a t ih =>
    obtain ⟨a1, a2⟩ := a
    by_cases ha : a2.lookup "standard_name" = some (.text sn)
    · rw [List.find?_cons_of_pos (by simpa using ha)]
      constructor
      · rintro ⟨before, va, after, he, h1, h2⟩
        cases before with
        | nil => simp only [List.nil_append, List.cons.injEq, Prod.mk.injEq] at he; simp [he.1.1]
        | cons b bs =>
          obtain ⟨b1, b2⟩ := b
          simp only [List.cons_append, List.cons.injEq, Prod.mk.injEq] at he
          exact absurd (he.1.2 ▸ ha) (h2 b1 b2 (by simp))
      · intro h
        simp at h
        subst h
        exact ⟨[], a2, t, rfl, ha, fun _ _ h => by cases h⟩
    · rw [List.find?_cons_of_neg (by simpa using ha), ← ih]
      constructor
      · rintro ⟨before, va, after, he, h1, h2⟩
        cases before with
        | nil =>
          simp only [List.nil_append, List.cons.injEq, Prod.mk.injEq] at he
          exact absurd (he.1.2 ▸ h1) ha
        | cons b bs =>
          simp only [List.cons_append, List.cons.injEq] at he
          exact ⟨bs, va, after, he.2, h1, fun w wa hw => h2 w wa (List.mem_cons_of_mem _ hw)⟩
      · rintro ⟨before, va, after, he, h1, h2⟩
        refine ⟨(a1, a2) :: before, va, after, by rw [he]; rfl, h1, ?_⟩
        intro w wa hw
        rcases List.mem_cons.1 hw with h | h
        · injection h with h3 h4
          rw [h4]; exact ha
        · exact h2 w wa h

theorem paramsFrom_lookup {k : Kind} {p : String} (h1 : p ≠ "grid_mapping_name") (h2 : k = .lambert → p ≠ "units") (as : Attrs)
    (px : Option String) (vars : Vars) : (paramsFrom k as px vars).lookup p = as.lookup p := by
  unfold paramsFrom
  simp only
  split
  · rename_i h
    rw [lookup_setAttr_ne (h2 h), lookup_dropAttr h1]
  · rw [lookup_dropAttr h1]

theorem paramsFrom_units (as : Attrs) (px : String) (xa : Attrs) (vars : Vars) (hx : vars.lookup px = some xa) :
    (paramsFrom .lambert as (some px) vars).lookup "units" = some ((xa.lookup "units").getD .none) := by
  unfold paramsFrom
  simp only [if_true, lookup_setAttr_self, Option.bind_some, hx, Option.getD_some]

/-- The value depends on the parameters only. -/
theorem projOf_congr {k : Kind} {a b : String → Option Val} {u w : Val}
    (h : ∀ p, p ≠ "grid_mapping_name" → (k = .lambert → p ≠ "units") → a p = b p) (hu : k = .lambert → u = w) :
    projOf k a u = projOf k b w := by
  cases k <;> simp only [projOf] <;> simp (disch := decide) only [h]
  simp [hu]

/-- The parameters found for a grid mapping, for any kind that needs projection coordinates. -/
theorem matched_planar {k : Kind} (hk : k ≠ .spherical) (hr : k ≠ .rotated) {g : String} {as : Attrs} {vars : Vars} {px py : String}
    (hx : FirstWith "projection_x_coordinate" vars px) (hy : FirstWith "projection_y_coordinate" vars py) :
    matched k g as vars = construct k g (paramsFrom k as (some px) vars) (some px) (some py) := by
  unfold matched
  rw [if_neg hk, if_neg hr, (firstWith_iff _ _ _).1 hx, (firstWith_iff _ _ _).1 hy]

theorem matched_rotated {g : String} {as : Attrs} {vars : Vars} :
    matched .rotated g as vars = construct .rotated g (paramsFrom .rotated as none vars) none none := rfl

/-- Preferring the rotated pole makes a difference only where there is one. -/
theorem getCrs_false (G : Gdal) (vars : Vars) (c : Crs) (h : getCrs G true vars = .ok c) :
    getCrs G false vars = if c.sys = .cf .rotated ∧ hasLonLat vars = true then .ok cfSpherical else .ok c := by
  unfold getCrs getCrsVariable at h ⊢
  cases hl : loadAll vars vars with
  | error e => rw [hl] at h; cases h
  | ok cs =>
    rw [hl] at h
    cases cs with
    | nil =>
      simp only at h ⊢
      cases hr : loadRole G vars with
      | error e => rw [hr] at h; cases h
      | ok o =>
        rw [hr] at h
        have hsys : c.sys ≠ .cf .rotated := by
          cases o with
          | none => injection h with h; subst h; decide
          | some d =>
            injection h with h
            subst h
            unfold loadRole at hr
            split at hr
            · cases hr
            · injection hr with hr; injection hr with hr; subst hr; simp
            · cases hr
        rw [if_neg (fun hc => hsys hc.1)]
        cases o <;> exact h
    | cons d ds =>
      simp only at h ⊢
      by_cases hany : (ds.any fun e => e.name != d.name) = true
      · rw [if_pos hany] at h; cases h
      · rw [if_neg hany, if_neg (by simp)] at h
        injection h with h
        subst h
        rw [if_neg hany]
        by_cases hc : d.sys = .cf .rotated ∧ hasLonLat vars = true
        · rw [if_pos hc, if_pos ⟨trivial, hc⟩]
        · rw [if_neg hc, if_neg (fun h => hc h.2)]

theorem load_noMapping {vars : Vars} (h : NoMapping vars) {v : String} {va : Attrs} (hv : (v, va) ∈ vars) (k : Kind) :
    load k va vars = .ok none := by
  by_cases hk : k = .spherical
  · subst hk
    unfold load
    rw [if_pos rfl, if_neg]
    rintro (hc | hc)
    · exact h.2 v va hv hc
    · exact h.1 .spherical v va ⟨hv, hc⟩
  · rcases load_cases hk va vars with ⟨h1, _⟩ | ⟨g, as, hm, hg, _⟩
    · exact h1
    · exact absurd ⟨mappingOf_mem hm, by rw [cfName_eq]; exact hg⟩ (h.1 k g as)

theorem loadAll_noMapping {vars : Vars} (h : NoMapping vars) : ∀ l : Vars, (∀ kv ∈ l, kv ∈ vars) → loadAll vars l = .ok [] := by
  have hfirst : ∀ v va, (v, va) ∈ vars → ∀ ks, loadFirst va vars ks = .ok none := by
    intro v va hv ks
    induction ks with
    | nil => rfl
    | cons k ks ih => unfold loadFirst; rw [load_noMapping h hv k]; exact ih
  intro l
  induction l with
  | nil => intro _; rfl
  | cons kv t ih =>
    intro hsub
    unfold loadAll
    rw [hfirst kv.1 kv.2 (hsub kv (by simp)) kinds]
    exact ih (fun x hx => hsub x (List.mem_cons_of_mem _ hx))

theorem holds_iff (vars : Vars) (g t : String) : Holds vars g t ↔ (g, t) ∈ roleVars vars := by
  unfold Holds roleVars
  rw [List.mem_filterMap]
  constructor
  · rintro ⟨as, hm, h1, h2⟩
    exact ⟨(g, as), hm, by simp [h1, h2]⟩
  · rintro ⟨kv, hm, h⟩
    split at h
    · rename_i h1
      split at h
      · rename_i t' h2
        simp only [Option.some.injEq, Prod.mk.injEq] at h
        obtain ⟨h3, h4⟩ := h
        subst h3; subst h4
        exact ⟨kv.2, hm, h1, h2⟩
      · cases h
    · cases h

theorem matched_name {k : Kind} (hk : k ≠ .spherical) {g : String} {as : Attrs} {vars : Vars} {c : Crs}
    (h : matched k g as vars = .ok c) : c.name = g ∧ c.sys = .cf k := by
  have hc : ∀ ps px py, construct k g ps px py = .ok c → c.name = g ∧ c.sys = .cf k := by
    intro ps px py h
    unfold construct at h
    split at h
    · cases h
    · injection h with h
      subst h
      exact ⟨rfl, rfl⟩
  unfold matched at h
  rw [if_neg hk] at h
  split at h
  · exact hc _ _ _ h
  · split at h
    · exact hc _ _ _ h
    · cases h

/-- A variable that refers to a grid mapping gives a coordinate system with its name. -/
theorem loadFirst_refers {vars : Vars} {k : Kind} (hk : k ≠ .spherical) {g : String} {va as : Attrs}
    (hg : vars.lookup g = some as) (hd : as.lookup "grid_mapping_name" = some (.text (gmName k)))
    (hr : va.lookup "grid_mapping" = some (.text g)) (hn : va.lookup "grid_mapping_name" = none) (ks : List Kind) :
    (∀ c, loadFirst va vars ks = .ok (some c) → c.name = g) ∧ (k ∈ ks → loadFirst va vars ks ≠ .ok none) := by
  have hm : ∀ k', mappingOf k' va vars = some (g, as) := by
    intro k'
    unfold mappingOf
    simp [hr, hg]
  have hload : ∀ k' c, load k' va vars = .ok (some c) → c.name = g := by
    intro k' c h
    by_cases hk' : k' = .spherical
    · subst hk'
      unfold load at h
      rw [if_pos rfl] at h
      split at h
      · rename_i hc
        rcases hc with hc | hc
        · rw [hr] at hc
          injection hc with hc
          injection hc with hc
          injection h with h
          injection h with h
          subst h
          exact hc.symm
        · rw [hn] at hc; cases hc
      · cases h
    · rcases load_cases hk' va vars with ⟨h1, _⟩ | ⟨g', as', hm', _, hl⟩
      · rw [h1] at h; cases h
      · rw [hm k'] at hm'
        injection hm' with hm'
        injection hm' with h1 h2
        subst h1; subst h2
        rw [hl] at h
        cases hx : matched k' g as vars with
        | error e => rw [hx] at h; cases h
        | ok d =>
          rw [hx] at h
          injection h with h
          injection h with h
          subst h
          exact (matched_name hk' hx).1
  have hne : load k va vars ≠ .ok none := by
    intro h
    rcases load_cases hk va vars with ⟨_, h2⟩ | ⟨g', as', _, _, hl⟩
    · exact h2 g as (hm k) hd
    · rw [hl] at h
      cases hx : matched k g' as' vars <;> rw [hx] at h <;> cases h
  induction ks with
  | nil => exact ⟨fun c h => by (cases h), fun h => by (cases h)⟩
  | cons k' ks ih =>
    constructor
    · intro c h
      unfold loadFirst at h
      split at h
      · cases h
      · rename_i d hd'
        injection h with h
        injection h with h
        subst h
        exact hload k' _ hd'
      · exact ih.1 c h
    · intro hmem h
      unfold loadFirst at h
      split at h
      · cases h
      · cases h
      · rename_i hnone
        rcases List.mem_cons.1 hmem with h1 | h1
        · subst h1; exact hne hnone
        · exact ih.2 h1 h

theorem loadAll_mem {vars : Vars} : ∀ {l : Vars} {cs : List Crs}, loadAll vars l = .ok cs → ∀ kv ∈ l,
    loadFirst kv.2 vars kinds = .ok none ∨ ∃ c ∈ cs, loadFirst kv.2 vars kinds = .ok (some c) := by
  intro l
  induction l with
  | nil => intro cs _ kv hkv; cases hkv
  | cons a t ih =>
    intro cs h kv hkv
    unfold loadAll at h
    split at h
    · cases h
    · rename_i h0
      rcases List.mem_cons.1 hkv with h1 | h1
      · subst h1; exact Or.inl h0
      · exact ih h kv h1
    · rename_i c h0
      split at h
      · cases h
      · rename_i cs' h2
        injection h with h
        subst h
        rcases List.mem_cons.1 hkv with h1 | h1
        · subst h1; exact Or.inr ⟨c, by simp, h0⟩
        · rcases ih h2 kv h1 with h3 | ⟨d, hd, h3⟩
          · exact Or.inl h3
          · exact Or.inr ⟨d, List.mem_cons_of_mem _ hd, h3⟩

/-- The attributes of a variable after formatting. -/
def formatted (c : Crs) (f : Field) (v : String) (va : Attrs) : Attrs :=
  let a := if f.data.contains v then setAttr "grid_mapping" (.text c.name) va else va
  if hasCfAttrs c.sys then
    let b := if some v = f.x then addAttr "standard_name" (.text "longitude") (addAttr "units" (.text "degrees_east") a) else a
    if some v = f.y then addAttr "standard_name" (.text "latitude") (addAttr "units" (.text "degrees_north") b) else b
  else a

theorem formatField_vars (c : Crs) (f : Field) : (formatField c f).vars = f.vars.map fun kv => (kv.1, formatted c f kv.1 kv.2) := by
  have e1 : ∀ (q : Prop) [Decidable q] (v : String) (x y : Attrs), (if q then (v, x) else (v, y)) = (v, if q then x else y) := by
    intro q _ v x y; split <;> rfl
  unfold formatField addCfAttrs setMapping onVar formatted
  simp only
  split
  · simp only [List.map_map]
    apply List.map_congr_left
    intro kv _
    obtain ⟨v, va⟩ := kv
    simp only [Function.comp, e1]
  · apply List.map_congr_left
    intro kv _
    obtain ⟨v, va⟩ := kv
    simp only [e1]

theorem lookup_addAttr_ne {key p : String} (h : p ≠ key) (v : Val) (as : Attrs) : (addAttr key v as).lookup p = as.lookup p := by
  unfold addAttr
  split
  · rfl
  · cases hl : as.lookup p with
    | none => rw [lookup_append_none hl, List.lookup_cons, beq_false_of_ne h]; rfl
    | some w => exact lookup_append_some hl

theorem formatted_lookup {c : Crs} {f : Field} {v : String} {va : Attrs} {p : String} (h1 : p ≠ "grid_mapping")
    (h2 : hasCfAttrs c.sys = true → p ≠ "standard_name" ∧ p ≠ "units") : (formatted c f v va).lookup p = va.lookup p := by
  have ha : ∀ a : Attrs, (if f.data.contains v = true then setAttr "grid_mapping" (.text c.name) a else a).lookup p = a.lookup p := by
    intro a
    split
    · exact lookup_setAttr_ne h1 _ _
    · rfl
  unfold formatted
  simp only
  split
  · rename_i hc
    obtain ⟨h3, h4⟩ := h2 hc
    split
    · rw [lookup_addAttr_ne h3, lookup_addAttr_ne h4]
      split
      · rw [lookup_addAttr_ne h3, lookup_addAttr_ne h4, ha]
      · rw [ha]
    · split
      · rw [lookup_addAttr_ne h3, lookup_addAttr_ne h4, ha]
      · rw [ha]
  · rw [ha]

theorem formatted_mapping (c : Crs) (f : Field) (v : String) (va : Attrs) :
    (formatted c f v va).lookup "grid_mapping" = if v ∈ f.data then some (.text c.name) else va.lookup "grid_mapping" := by
  have h3 : "grid_mapping" ≠ "standard_name" := by decide
  have h4 : "grid_mapping" ≠ "units" := by decide
  have ha : (if f.data.contains v = true then setAttr "grid_mapping" (.text c.name) va else va).lookup "grid_mapping" =
      if v ∈ f.data then some (.text c.name) else va.lookup "grid_mapping" := by
    by_cases h : v ∈ f.data
    · rw [if_pos h, if_pos (by simpa using h)]; exact lookup_setAttr_self _ _ _
    · rw [if_neg h, if_neg (by simpa using h)]
  unfold formatted
  simp only
  split
  · split
    · rw [lookup_addAttr_ne h3, lookup_addAttr_ne h4]
      split
      · rw [lookup_addAttr_ne h3, lookup_addAttr_ne h4, ha]
      · rw [ha]
    · split
      · rw [lookup_addAttr_ne h3, lookup_addAttr_ne h4, ha]
      · rw [ha]
  · rw [ha]

theorem formatted_names (c : Crs) (f : Field) : (formatField c f).vars.map Prod.fst = f.vars.map Prod.fst := by
  rw [formatField_vars, List.map_map]
  rfl

theorem formatted_mem {c : Crs} {f : Field} {v : String} {va : Attrs} (h : (v, va) ∈ (formatField c f).vars) :
    ∃ va₀, (v, va₀) ∈ f.vars ∧ va = formatted c f v va₀ := by
  rw [formatField_vars, List.mem_map] at h
  obtain ⟨kv, hm, he⟩ := h
  injection he with h1 h2
  subst h1
  exact ⟨kv.2, hm, h2.symm⟩

theorem written_params {ps : Attrs} (h : Storable ps) : ps.map writtenParam = ps := by
  have : ps.map writtenParam = ps.map id := by
    apply List.map_congr_left
    intro kv hkv
    unfold writtenParam
    rw [if_neg]
    · rfl
    · intro h'
      obtain ⟨a, b⟩ := kv
      simp only at h'
      subst h'
      exact h.values a hkv
  rw [this, List.map_id]

theorem crsAttrs_cf (G : Gdal) {c : Crs} {k : Kind} (hsys : c.sys = .cf k) (h : Storable c.params) :
    crsAttrs G c = ("grid_mapping_name", .text (gmName k)) :: c.params := by
  unfold crsAttrs
  rw [hsys]
  simp only [written_params h]

theorem dropAttr_none {key : String} {as : Attrs} (h : as.lookup key = none) : dropAttr key as = as := by
  rw [crsLookup_none] at h
  unfold dropAttr
  rw [List.filter_eq_self]
  intro kv hkv
  obtain ⟨a, b⟩ := kv
  simp only [bne_iff_ne, ne_eq]
  intro h'
  subst h'
  exact h b hkv

theorem setAttr_same {key : String} {v : Val} {as : Attrs} (hn : (as.map Prod.fst).Nodup) (h : as.lookup key = some v) :
    setAttr key v as = as := by
  unfold setAttr
  rw [h, Option.isSome_some, if_pos rfl]
  have : (as.map fun kv => if kv.1 = key then (key, v) else kv) = as.map id := by
    apply List.map_congr_left
    intro kv hkv
    obtain ⟨a, b⟩ := kv
    simp only [id]
    split
    · rename_i ha
      subst ha
      rw [crsLookup_of_mem hn hkv] at h
      injection h with h
      rw [h]
    · rfl
  rw [this, List.map_id]

theorem withExtras_again (k : Kind) (ps : Attrs) : withExtras k (withExtras k ps) = withExtras k ps := by
  have key : ∀ (n : String) (v : Val), (fun q : Attrs => if (q.lookup n).isNone then q ++ [(n, v)] else q)
      ((fun q : Attrs => if (q.lookup n).isNone then q ++ [(n, v)] else q) ps) =
      (fun q : Attrs => if (q.lookup n).isNone then q ++ [(n, v)] else q) ps := by
    intro n v
    simp only
    by_cases h : (ps.lookup n).isNone = true
    · rw [if_pos h, if_neg]
      rw [Option.isNone_iff_eq_none] at h
      rw [lookup_append_none h]
      simp
    · rw [if_neg h, if_neg h]
  cases k <;> first | rfl | exact key _ _

/-- The constructor makes the same coordinate system from the parameters it has stored. -/
theorem construct_again {k : Kind} {n : String} {ps : Attrs} {px py : Option String} {c : Crs} (h : construct k n ps px py = .ok c) :
    construct k n c.params px py = .ok c ∧ c.params = withExtras k ps ∧ (k = .lambert → (c.params.lookup "units").isSome) := by
  unfold construct at h
  cases he : projEntries k (withExtras k ps) (mapParameters k) with
  | error e => rw [he] at h; cases h
  | ok entries =>
    rw [he] at h
    injection h with h
    subst h
    refine ⟨?_, rfl, ?_⟩
    · unfold construct
      simp only [withExtras_again, he]
    · intro hk
      subst hk
      cases hu : (withExtras .lambert ps).lookup "units" with
      | some v => rfl
      | none =>
        have := projEntries_missing .lambert (withExtras .lambert ps) hu (by rfl) (mapParameters .lambert)
          (show ("units", "units") ∈ mapParameters .lambert by decide)
        rw [this] at he
        cases he

/-- What is written for a field with a CF grid mapping has that one grid mapping. -/
theorem toFile_one (G : Gdal) {f : Field} {c : Crs} {k : Kind} (hcrs : f.crs = some c) (hsys : c.sys = .cf k)
    (hn : (f.vars.map Prod.fst).Nodup) (hfree : c.name ∉ f.vars.map Prod.fst)
    (hun : ∀ v va, (v, va) ∈ f.vars → va.lookup "grid_mapping_name" = none ∧ (v ∈ f.data → va.lookup "grid_mapping" = some (.text c.name)) ∧
      (v ∉ f.data → va.lookup "grid_mapping" = none))
    (hp : Storable c.params) (hfound : CanBeFound f k c.name) (hname : k = .spherical ∨ c.name ≠ "latitude_longitude") :
    OneMapping (toFile G f) k c.name (crsAttrs G c) := by
  have hfile : toFile G f = f.vars ++ [(c.name, crsAttrs G c)] := by unfold toFile; rw [hcrs]
  have hmem : ∀ v va, (v, va) ∈ toFile G f ↔ (v, va) ∈ f.vars ∨ (v = c.name ∧ va = crsAttrs G c) := by
    intro v va
    rw [hfile, List.mem_append, List.mem_singleton, Prod.mk.injEq]
  have hattr := crsAttrs_cf G hsys hp
  have hgm : (crsAttrs G c).lookup "grid_mapping_name" = some (.text (cfName k)) := by
    rw [hattr, List.lookup_cons, cfName_eq]; simp
  have hgr : (crsAttrs G c).lookup "grid_mapping" = none := by
    rw [hattr, List.lookup_cons, beq_false_of_ne (by decide)]
    exact hp.names.2
  refine ⟨?_, ⟨(hmem _ _).2 (Or.inr ⟨rfl, rfl⟩), hgm⟩, ?_, ?_, ?_, hname⟩
  · rw [hfile, List.map_append, List.nodup_append]
    refine ⟨hn, by simp, ?_⟩
    intro a ha b hb
    simp only [List.map_cons, List.map_nil, List.mem_singleton] at hb
    subst hb
    intro h
    subst h
    exact hfree ha
  · rintro k' g' as' ⟨hm, hl⟩
    rcases (hmem _ _).1 hm with h | h
    · rw [(hun _ _ h).1] at hl; cases hl
    · exact h.1
  · intro v va r hm hl
    rcases (hmem _ _).1 hm with h | ⟨_, h⟩
    · by_cases hv : v ∈ f.data
      · rw [(hun _ _ h).2.1 hv] at hl
        injection hl with hl
        injection hl with hl
        exact hl.symm
      · rw [(hun _ _ h).2.2 hv] at hl; cases hl
    · rw [h, hgr] at hl; cases hl
  · rcases hfound with ⟨v, va, hv, hd⟩ | ⟨hu, ho⟩
    · exact Or.inl ⟨v, va, (hmem _ _).2 (Or.inl hv), (hun _ _ hv).2.1 hd⟩
    · refine Or.inr ⟨hu, hgr, ?_⟩
      intro v va hm hv
      rcases (hmem _ _).1 hm with h | h
      · exact absurd hv (ho _ _ h)
      · exact h.1

theorem write_none (G : Gdal) {f : Field} {c : Crs} (hc : f.crs = some c) :
    write G none f = toFile G (formatField c f) ∧ (formatField c f).crs = some c ∧ (formatField c f).data = f.data := by
  refine ⟨?_, hc, rfl⟩
  unfold write
  simp only [hc]

theorem formatted_clean {f : Field} {c : Crs} (hf : CleanField f) :
    ∀ v va, (v, va) ∈ (formatField c f).vars → va.lookup "grid_mapping_name" = none ∧
      (v ∈ f.data → va.lookup "grid_mapping" = some (.text c.name)) ∧ (v ∉ f.data → va.lookup "grid_mapping" = none) := by
  intro v va hm
  obtain ⟨va₀, hm₀, rfl⟩ := formatted_mem hm
  refine ⟨?_, ?_, ?_⟩
  · rw [formatted_lookup (by decide) (fun _ => by decide)]
    exact (hf.unmarked _ _ hm₀).1
  · intro hv
    rw [formatted_mapping, if_pos hv]
  · intro hv
    rw [formatted_mapping, if_neg hv]
    exact (hf.unmarked _ _ hm₀).2.2 hv

theorem formatted_found {f : Field} {c : Crs} {k : Kind} {g : String} (h : CanBeFound f k g) : CanBeFound (formatField c f) k g := by
  rcases h with ⟨v, va, hv, hd⟩ | ⟨hu, ho⟩
  · refine Or.inl ⟨v, formatted c f v va, ?_, hd⟩
    rw [formatField_vars]
    exact List.mem_map.2 ⟨(v, va), hv, rfl⟩
  · refine Or.inr ⟨hu, ?_⟩
    intro v va hm
    obtain ⟨va₀, hm₀, _⟩ := formatted_mem hm
    exact ho _ _ hm₀

theorem first_written (G : Gdal) {f : Field} {c : Crs} (hc : f.crs = some c) (hcf : hasCfAttrs c.sys = false) {sn v : String}
    (h : FirstWith sn f.vars v) : FirstWith sn (write G none f) v := by
  rw [firstWith_iff] at h ⊢
  rw [(write_none G hc).1]
  unfold toFile
  rw [(write_none G hc).2.1]
  simp only
  rw [formatField_vars]
  unfold withStandardName at h ⊢
  rw [List.find?_append, List.find?_map]
  have : ((fun kv : String × Attrs => kv.2.lookup "standard_name" == some (Val.text sn)) ∘
      fun kv : String × Attrs => (kv.1, formatted c f kv.1 kv.2)) = fun kv : String × Attrs => kv.2.lookup "standard_name" == some (Val.text sn) := by
    funext kv
    simp only [Function.comp]
    rw [formatted_lookup (by decide) (fun h => by rw [hcf] at h; cases h)]
  rw [this]
  cases hfnd : f.vars.find? fun kv => kv.2.lookup "standard_name" == some (Val.text sn) with
  | none => rw [hfnd] at h; cases h
  | some kv =>
    rw [hfnd] at h
    simpa using h

theorem remember_keeps (G : Gdal) {priority : Bool} {vars : Vars} {actual : Option Crs}
    (h : ∀ c, priority = false → getCrs G true vars = .ok c → c.sys ≠ .cf .rotated) : remember G priority vars actual = actual := by
  unfold remember
  split
  · rename_i raw c h1 h2
    rw [if_neg]
    rintro ⟨h3, h4, _⟩
    exact h raw h3 h1 h4
  · rfl

theorem dropVar_mem {n v : String} {va : Attrs} {l : Vars} : (v, va) ∈ dropVar n l ↔ (v, va) ∈ l ∧ v ≠ n := by
  simp [dropVar]

theorem dropVar_names {n : String} {l : Vars} (h : (l.map Prod.fst).Nodup) : ((dropVar n l).map Prod.fst).Nodup ∧ n ∉ (dropVar n l).map Prod.fst := by
  constructor
  · unfold dropVar
    exact List.Nodup.sublist ((List.filter_sublist).map Prod.fst) h
  · intro hm
    obtain ⟨kv, hkv, he⟩ := List.mem_map.1 hm
    obtain ⟨v, va⟩ := kv
    exact (dropVar_mem.1 hkv).2 he

/-- A file with a Lambert conformal conic projection. -/
def lambertFile : Vars :=
  [("tas", [("grid_mapping", .text "Lambert_Conformal"), ("units", .text "K")]),
   ("xc", [("standard_name", .text "projection_x_coordinate"), ("units", .text "km")]),
   ("yc", [("standard_name", .text "projection_y_coordinate"), ("units", .text "km")]),
   ("Lambert_Conformal", [("grid_mapping_name", .text "lambert_conformal_conic"), ("standard_parallel", .nums [30, 60]),
     ("longitude_of_central_meridian", .num (-97)), ("latitude_of_projection_origin", .num 47), ("earth_radius", .num 6371229)])]

/-- The field of a file. -/
def fieldOf (vars : Vars) : Field := { vars := vars, data := ["tas"], x := some "xc", y := some "yc" }

/-- The coordinate system of the file. -/
def lambertCrs : Crs :=
  { sys := .cf .lambert, name := "Lambert_Conformal",
    value := [("proj", .text "lcc"), ("lat_1", .num 30), ("lat_2", .num 60), ("lon_0", .num (-97)), ("lat_0", .num 47), ("x_0", .num 0),
      ("y_0", .num 0), ("units", .text "km")],
    params := [("standard_parallel", .nums [30, 60]), ("longitude_of_central_meridian", .num (-97)),
      ("latitude_of_projection_origin", .num 47), ("earth_radius", .num 6371229), ("units", .text "km")],
    px := some "xc", py := some "yc" }

/-- The field with the coordinate system of the file. -/
def lambertField : Field := { fieldOf (dropVar "Lambert_Conformal" lambertFile) with crs := some lambertCrs }

/-- A file with a rotated pole, longitudes and latitudes. -/
def crsRotatedFile : Vars :=
  [("tas", [("grid_mapping", .text "rotated_pole")]),
   ("lon", [("standard_name", .text "longitude")]), ("lat", [("standard_name", .text "latitude")]),
   ("rotated_pole", [("grid_mapping_name", .text "rotated_latitude_longitude"), ("grid_north_pole_latitude", .num 39),
     ("grid_north_pole_longitude", .num (-162))])]

theorem mem4 {a b c d x : String × Attrs} : x ∈ [a, b, c, d] ↔ x = a ∨ x = b ∨ x = c ∨ x = d := by simp
theorem mem3 {a b c x : String × Attrs} : x ∈ [a, b, c] ↔ x = a ∨ x = b ∨ x = c := by simp

/-- The hypotheses of `C82_found` are met. -/
theorem lambert_one : OneMapping lambertFile .lambert "Lambert_Conformal"
    [("grid_mapping_name", .text "lambert_conformal_conic"), ("standard_parallel", .nums [30, 60]),
     ("longitude_of_central_meridian", .num (-97)), ("latitude_of_projection_origin", .num 47), ("earth_radius", .num 6371229)] := by
  refine ⟨by decide, ⟨by decide, rfl⟩, ?_, ?_, Or.inl ⟨"tas", [("grid_mapping", .text "Lambert_Conformal"), ("units", .text "K")], by decide, by decide⟩, Or.inr (by decide)⟩
  · rintro k g as ⟨hm, hl⟩
    rcases mem4.1 hm with h | h | h | h <;> injection h with h1 h2 <;> subst h1 <;> subst h2 <;> first | rfl | (revert hl; cases k <;> decide)
  · intro v va r hm hl
    rcases mem4.1 hm with h | h | h | h <;> injection h with h1 h2 <;> subst h1 <;> subst h2 <;>
      first | (injection hl with hl; injection hl with hl; exact hl.symm) | (exact absurd hl (by simp [List.lookup_cons]))

/-- The hypotheses of `C82_rotated` are met. -/
theorem rotated_one : OneMapping crsRotatedFile .rotated "rotated_pole"
    [("grid_mapping_name", .text "rotated_latitude_longitude"), ("grid_north_pole_latitude", .num 39),
     ("grid_north_pole_longitude", .num (-162))] := by
  refine ⟨by decide, ⟨by decide, rfl⟩, ?_, ?_, Or.inl ⟨"tas", [("grid_mapping", .text "rotated_pole")], by decide, by decide⟩, Or.inr (by decide)⟩
  · rintro k g as ⟨hm, hl⟩
    rcases mem4.1 hm with h | h | h | h <;> injection h with h1 h2 <;> subst h1 <;> subst h2 <;> first | rfl | (revert hl; cases k <;> decide)
  · intro v va r hm hl
    rcases mem4.1 hm with h | h | h | h <;> injection h with h1 h2 <;> subst h1 <;> subst h2 <;>
      first | (injection hl with hl; injection hl with hl; exact hl.symm) | (exact absurd hl (by simp [List.lookup_cons]))

/-- The hypotheses of `C82_roundtrip_partial` are met. -/
theorem lambert_clean : CleanField lambertField := by
  refine ⟨by decide, ?_, ?_⟩
  · intro c hc
    injection hc with hc
    subst hc
    decide
  · intro v va hm
    have hm' : (v, va) ∈ [("tas", [("grid_mapping", Val.text "Lambert_Conformal"), ("units", .text "K")]),
      ("xc", [("standard_name", .text "projection_x_coordinate"), ("units", .text "km")]),
      ("yc", [("standard_name", .text "projection_y_coordinate"), ("units", .text "km")])] := hm
    rcases mem3.1 hm' with h | h | h <;> injection h with h1 h2 <;> subst h1 <;> subst h2 <;> decide

end Ocgis.Props
