import Verif.Proofs.CrsMeta
/-!
# C82: the coordinate systems of files and fields
-/
namespace Ocgis.Props
open Ocgis Ocgis.CrsMeta Ocgis.Spec

/-- **C82.** If the file has one grid mapping with all parameters, and the projection coordinates, the coordinate system of the file
has its name and the PROJ.4 parameters that stand for its parameters. -/
theorem C82_found (G : Gdal) (vars : Vars) (k : Kind) (hk : k ≠ .spherical) (hr : k ≠ .rotated) (g : String) (as : Attrs)
    (hs : OneMapping vars k g as) (hneed : ∀ p ∈ Needs k, (as.lookup p).isSome) (px py : String) (xa : Attrs)
    (hx : FirstWith "projection_x_coordinate" vars px) (hy : FirstWith "projection_y_coordinate" vars py) (hxa : (px, xa) ∈ vars) :
    ∃ c, getCrs G true vars = .ok c ∧ getCrs G false vars = .ok c ∧ c.sys = .cf k ∧ c.name = g ∧ c.px = some px ∧ c.py = some py ∧
      c.value = projOf k (fun p => as.lookup p) ((xa.lookup "units").getD .none) := by
  have hxl := crsLookup_of_mem hs.names hxa
  have h1 := getCrsVariable_one G hs
  rw [matched_planar hk hr hx hy, construct_value k hk] at h1
  · refine ⟨_, h1, ?_, rfl, rfl, rfl, rfl, ?_⟩
    · rw [getCrs_false G vars _ h1, if_neg (by simp [hr])]
    · simp only
      refine projOf_congr (fun p hp hu => paramsFrom_lookup hp hu _ _ _) ?_
      intro hl
      subst hl
      rw [paramsFrom_units as px xa vars hxl]
      rfl
  · intro p hp
    obtain ⟨_, _, _, _, h2, h3⟩ := needs_mem k p hp
    rw [paramsFrom_lookup h2 (fun _ => h3)]
    exact hneed p hp
  · intro hl
    subst hl
    rw [paramsFrom_units as px xa vars hxl]
    rfl

/-- **C82.** The same for a rotated pole, which needs no projection coordinates.  It gives way to longitudes and latitudes if the
file has one variable for each, unless it is preferred. -/
theorem C82_rotated (G : Gdal) (vars : Vars) (g : String) (as : Attrs) (hs : OneMapping vars .rotated g as)
    (hneed : ∀ p ∈ Needs .rotated, (as.lookup p).isSome) :
    (∃ c, getCrs G true vars = .ok c ∧ c.sys = .cf .rotated ∧ c.name = g ∧
      ∀ p, p ≠ "grid_mapping_name" → c.params.lookup p = as.lookup p) ∧
    ((∃ lon lona lat lata, (lon, lona) ∈ vars ∧ lona.lookup "standard_name" = some (.text "longitude") ∧
        (∀ v va, (v, va) ∈ vars → va.lookup "standard_name" = some (.text "longitude") → v = lon) ∧
        (lat, lata) ∈ vars ∧ lata.lookup "standard_name" = some (.text "latitude") ∧
        (∀ v va, (v, va) ∈ vars → va.lookup "standard_name" = some (.text "latitude") → v = lat)) →
      ∃ c, getCrs G false vars = .ok c ∧ c.sys = .cf .spherical) ∧
    ((∀ v va, (v, va) ∈ vars → va.lookup "standard_name" ≠ some (.text "longitude")) →
      getCrs G false vars = getCrs G true vars) := by
  have h1 := getCrsVariable_one G hs
  rw [matched_rotated, construct_value .rotated (by decide)] at h1
  rotate_left
  · intro p hp
    obtain ⟨_, _, _, _, h2, h3⟩ := needs_mem .rotated p hp
    rw [paramsFrom_lookup h2 (fun _ => h3)]
    exact hneed p hp
  · intro h; cases h
  have hfalse : getCrs G false vars = if hasLonLat vars then .ok cfSpherical else getCrs G true vars := by
    rw [getCrs_false G vars _ h1, h1]
    by_cases hl : hasLonLat vars = true
    · rw [if_pos ⟨rfl, hl⟩, if_pos hl]
    · rw [if_neg (fun h => hl h.2), if_neg hl]
  refine ⟨⟨_, h1, rfl, rfl, ?_⟩, ?_, ?_⟩
  · intro p hp
    exact paramsFrom_lookup (k := .rotated) hp (fun h => absurd h (by decide)) as none vars
  · rintro ⟨lon, lona, lat, lata, hm1, hs1, hu1, hm2, hs2, hu2⟩
    have key : ∀ (sn n : String) (na : Attrs), (n, na) ∈ vars → na.lookup "standard_name" = some (.text sn) →
        (∀ v va, (v, va) ∈ vars → va.lookup "standard_name" = some (.text sn) → v = n) →
        (vars.filter fun kv => kv.2.lookup "standard_name" == some (.text sn)).length = 1 := by
      intro sn n na hm hsn hu
      have hnd : (vars.filter fun kv => kv.2.lookup "standard_name" == some (.text sn)).Nodup :=
        List.Pairwise.filter _ (List.Pairwise.of_map Prod.fst (fun a b h he => h (by rw [he])) hs.names)
      have hall : ∀ kv ∈ (vars.filter fun kv => kv.2.lookup "standard_name" == some (.text sn)), kv = (n, na) := by
        intro kv hkv
        obtain ⟨hkv1, hkv2⟩ := List.mem_filter.1 hkv
        have h3 := hu kv.1 kv.2 hkv1 (by simpa using hkv2)
        have h4 := crsLookup_of_mem hs.names (show (kv.1, kv.2) ∈ vars from hkv1)
        rw [h3, crsLookup_of_mem hs.names hm] at h4
        injection h4 with h4
        obtain ⟨k1, k2⟩ := kv
        simp only at h3 h4
        rw [h3, h4]
      have hmem : (n, na) ∈ (vars.filter fun kv => kv.2.lookup "standard_name" == some (.text sn)) :=
        List.mem_filter.2 ⟨hm, by simpa using hsn⟩
      revert hnd hall hmem
      generalize (vars.filter fun kv => kv.2.lookup "standard_name" == some (.text sn)) = l
      intro hnd hall hmem
      match l, hnd, hall, hmem with
      | [], _, _, hmem => cases hmem
      | [_], _, _, _ => rfl
      | a :: b :: t, hnd, hall, _ =>
        have ha := hall a (by simp)
        have hb := hall b (by simp)
        rw [ha, hb] at hnd
        simp at hnd
    have : hasLonLat vars = true := by
      unfold hasLonLat
      simp [key "longitude" lon lona hm1 hs1 hu1, key "latitude" lat lata hm2 hs2 hu2]
    rw [hfalse, if_pos this]
    exact ⟨_, rfl, rfl⟩
  · intro hno
    rw [hfalse, if_neg]
    unfold hasLonLat
    have : vars.filter (fun kv => kv.2.lookup "standard_name" == some (.text "longitude")) = [] := by
      rw [List.filter_eq_nil_iff]
      intro kv hkv
      simpa using hno kv.1 kv.2 hkv
    simp [this]

/-- **C82.** A grid mapping with a missing parameter is an error. -/
theorem C82_missing_parameter (G : Gdal) (vars : Vars) (k : Kind) (g : String) (as : Attrs)
    (hs : OneMapping vars k g as) (p : String) (hp : p ∈ Needs k) (hno : as.lookup p = none)
    (hxy : k ≠ .rotated → ∃ px py, FirstWith "projection_x_coordinate" vars px ∧ FirstWith "projection_y_coordinate" vars py) :
    getCrs G true vars = .error .keyError := by
  have hk : k ≠ .spherical := by intro h; subst h; cases hp
  rw [getCrsVariable_one G hs]
  obtain ⟨⟨q, hq⟩, hd, h1, h2, h3, h4⟩ := needs_mem k p hp
  have key : ∀ px name x y, construct k name (paramsFrom k as px vars) x y = .error .keyError := by
    intro px name x y
    have hl : (withExtras k (paramsFrom k as px vars)).lookup p = none := by
      have hl0 : (paramsFrom k as px vars).lookup p = none := by rw [paramsFrom_lookup h3 (fun _ => h4)]; exact hno
      unfold withExtras
      split
      · split
        · rw [lookup_append_none hl0]; rw [List.lookup_cons, beq_false_of_ne h1]; rfl
        · exact hl0
      · split
        · rw [lookup_append_none hl0]; rw [List.lookup_cons, beq_false_of_ne h2]; rfl
        · exact hl0
      · exact hl0
    unfold construct
    rw [projEntries_missing k _ hl hd _ hq]
  by_cases hr : k = .rotated
  · subst hr
    rw [matched_rotated, key]
  · obtain ⟨px, py, hx, hy⟩ := hxy hr
    rw [matched_planar hk hr hx hy, key]

/-- **C82.** A grid mapping that needs projection coordinates is an error if they are missing. -/
theorem C82_missing_coordinates (G : Gdal) (vars : Vars) (k : Kind) (hk : k ≠ .spherical) (hr : k ≠ .rotated) (g : String) (as : Attrs)
    (hs : OneMapping vars k g as) (sn : String) (hsn : sn = "projection_x_coordinate" ∨ sn = "projection_y_coordinate")
    (hno : ∀ v va, (v, va) ∈ vars → va.lookup "standard_name" ≠ some (.text sn)) :
    getCrs G true vars = .error .projectionCoordinateNotFound := by
  rw [getCrsVariable_one G hs]
  have : withStandardName sn vars = none := by
    unfold withStandardName
    rw [Option.map_eq_none_iff, List.find?_eq_none]
    intro kv hkv
    simpa using hno kv.1 kv.2 hkv
  unfold matched
  rw [if_neg hk, if_neg hr]
  rcases hsn with h | h <;> subst h <;> rw [this]
  cases withStandardName "projection_x_coordinate" vars <;> rfl

/-- **C82.** A file without grid mappings has the coordinate system that an earlier run wrote to it as a PROJ.4 text, and else
longitudes and latitudes on the sphere; two such texts are an error. -/
theorem C82_unmarked (G : Gdal) (priority : Bool) (vars : Vars) (hn : (vars.map Prod.fst).Nodup) (h : NoMapping vars) :
    ((∀ g t, ¬ Holds vars g t) → ∃ c, getCrs G priority vars = .ok c ∧ c.sys = .cf .spherical) ∧
    (∀ g t, Holds vars g t → (∀ g' t', Holds vars g' t' → g' = g) →
      ∃ c, getCrs G priority vars = .ok c ∧ c.sys = .plain ∧ c.name = g ∧ c.value = G.fromText t) ∧
    (∀ g t g' t', Holds vars g t → Holds vars g' t' → g ≠ g' → getCrs G priority vars = .error .valueError) := by
  have h0 := loadAll_noMapping h vars (fun _ h => h)
  have hrole : (match loadRole G vars with
      | .error e => (.error e : Res Crs) | .ok none => .ok cfSpherical | .ok (some c) => .ok c) = getCrs G priority vars := by
    unfold getCrs getCrsVariable
    rw [h0]
    cases loadRole G vars with
    | error e => rfl
    | ok o => cases o <;> rfl
  have hnd : ((roleVars vars).map Prod.fst).Nodup := by
    have hsub : List.Sublist ((roleVars vars).map Prod.fst) (vars.map Prod.fst) := by
      clear h h0 hrole hn
      unfold roleVars
      induction vars with
      | nil => simp
      | cons a t ih =>
        simp only [List.filterMap_cons, List.map_cons]
        by_cases h1 : a.2.lookup "ocgis_role" = some (.text "coordinate_system")
        · rw [if_pos h1]
          cases h2 : a.2.lookup "proj4" with
          | none => exact List.Sublist.cons _ ih
          | some v =>
            cases v with
            | text s => exact List.Sublist.cons_cons _ ih
            | _ => exact List.Sublist.cons _ ih
        · rw [if_neg h1]
          exact List.Sublist.cons _ ih
    exact hsub.nodup hn
  refine ⟨?_, ?_, ?_⟩
  · intro hno
    have : roleVars vars = [] := by
      rw [List.eq_nil_iff_forall_not_mem]
      intro gt hm
      exact hno gt.1 gt.2 ((holds_iff _ _ _).2 hm)
    rw [← hrole]
    unfold loadRole
    rw [this]
    exact ⟨_, rfl, rfl⟩
  · intro g t hg hu
    rw [holds_iff] at hg
    rw [← hrole]
    unfold loadRole
    match hl : roleVars vars with
    | [] => rw [hl] at hg; cases hg
    | [(a, b)] =>
      rw [hl] at hg
      simp only [List.mem_singleton, Prod.mk.injEq] at hg
      obtain ⟨h1, h2⟩ := hg
      subst h1; subst h2
      exact ⟨_, rfl, rfl, rfl, rfl⟩
    | (a, b) :: (c, d) :: rest =>
      exfalso
      have h1 := hu a b ((holds_iff _ _ _).2 (by rw [hl]; simp))
      have h2 := hu c d ((holds_iff _ _ _).2 (by rw [hl]; simp))
      rw [hl] at hnd
      simp [h1, h2] at hnd
  · intro g t g' t' h1 h2 hne
    rw [holds_iff] at h1 h2
    rw [← hrole]
    unfold loadRole
    match hl : roleVars vars with
    | [] => rw [hl] at h1; cases h1
    | [(a, b)] =>
      rw [hl] at h1 h2
      simp only [List.mem_singleton, Prod.mk.injEq] at h1 h2
      exact absurd (h1.1.trans h2.1.symm) hne
    | (a, b) :: (c, d) :: rest => rfl

/-- **C82.** A coordinate system is never picked out of several: if two data variables refer to different grid mappings, the file is
refused. -/
theorem C82_never_guessed (G : Gdal) (priority : Bool) (vars : Vars) (hn : (vars.map Prod.fst).Nodup) (c : Crs)
    (h : getCrs G priority vars = .ok c) (k₁ k₂ : Kind) (h₁ : k₁ ≠ .spherical) (h₂ : k₂ ≠ .spherical) (g₁ g₂ : String) (as₁ as₂ : Attrs)
    (hd₁ : Defines vars k₁ g₁ as₁) (hd₂ : Defines vars k₂ g₂ as₂) (v₁ v₂ : String) (va₁ va₂ : Attrs) (hv₁ : (v₁, va₁) ∈ vars)
    (hv₂ : (v₂, va₂) ∈ vars) (hr₁ : va₁.lookup "grid_mapping" = some (.text g₁)) (hr₂ : va₂.lookup "grid_mapping" = some (.text g₂))
    (hn₁ : va₁.lookup "grid_mapping_name" = none) (hn₂ : va₂.lookup "grid_mapping_name" = none) : g₁ = g₂ := by
  have hall : ∀ k, k ∈ kinds := by intro k; cases k <;> decide
  have r₁ := loadFirst_refers h₁ (crsLookup_of_mem hn hd₁.1) (by rw [← cfName_eq]; exact hd₁.2) hr₁ hn₁ kinds
  have r₂ := loadFirst_refers h₂ (crsLookup_of_mem hn hd₂.1) (by rw [← cfName_eq]; exact hd₂.2) hr₂ hn₂ kinds
  unfold getCrs getCrsVariable at h
  cases hl : loadAll vars vars with
  | error e => rw [hl] at h; cases h
  | ok cs =>
    rcases loadAll_mem hl _ hv₁ with h3 | ⟨c₁, hc₁, h3⟩
    · exact absurd h3 (r₁.2 (hall _))
    rcases loadAll_mem hl _ hv₂ with h4 | ⟨c₂, hc₂, h4⟩
    · exact absurd h4 (r₂.2 (hall _))
    have e₁ := r₁.1 c₁ h3
    have e₂ := r₂.1 c₂ h4
    rw [hl] at h
    cases cs with
    | nil => cases hc₁
    | cons d ds =>
      simp only at h
      by_cases hany : (ds.any fun e => e.name != d.name) = true
      · rw [if_pos hany] at h; cases h
      · have hsame : ∀ e ∈ d :: ds, e.name = d.name := by
          intro e he
          rcases List.mem_cons.1 he with he | he
          · rw [he]
          · simp only [List.any_eq_true, not_exists, not_and] at hany
            have := hany e he
            simpa using this
        rw [← e₁, ← e₂, hsame c₁ hc₁, hsame c₂ hc₂]

/-- **C82.** A field has the coordinate system that is asked for, which may be none, or else that of the file.  All other variables
are there. -/
theorem C82_request (G : Gdal) (priority : Bool) (req : Request) (f f' : Field) (h : createField G priority req f = .ok f') :
    (∀ c, req = .given c → f'.crs = c) ∧ (req = .auto → ∃ c, getCrs G priority f.vars = .ok c ∧ f'.crs = some c) ∧
    (∀ c, f'.crs = some c → ∀ va, (c.name, va) ∉ f'.vars) ∧
    (∀ v va, (v, va) ∈ f'.vars → (v, va) ∈ f.vars) ∧
    (∀ v va, (v, va) ∈ f.vars → (v, va) ∈ f'.vars ∨ (∃ c, f'.crs = some c ∧ c.name = v) ∨
      ∃ c, getCrs G priority f.vars = .ok c ∧ c.name = v) ∧
    f'.data = f.data ∧ f'.x = f.x ∧ f'.y = f.y := by
  have hdrop : ∀ n v va (l : Vars), (v, va) ∈ dropVar n l ↔ (v, va) ∈ l ∧ v ≠ n := by
    intro n v va l
    simp [dropVar]
  unfold createField at h
  cases hg : getCrs G priority f.vars with
  | error e => rw [hg] at h; cases h
  | ok c =>
    rw [hg] at h
    cases req with
    | auto =>
      injection h with h
      subst h
      refine ⟨fun _ h => by (cases h), fun _ => ⟨c, rfl, rfl⟩, ?_, ?_, ?_, rfl, rfl, rfl⟩
      · intro d hd va hm
        injection hd with hd
        subst hd
        exact ((hdrop _ _ _ _).1 hm).2 rfl
      · intro v va hm
        exact ((hdrop _ _ _ _).1 hm).1
      · intro v va hm
        by_cases hv : v = c.name
        · exact Or.inr (Or.inl ⟨c, rfl, hv.symm⟩)
        · exact Or.inl ((hdrop _ _ _ _).2 ⟨hm, hv⟩)
    | given o =>
      cases o with
      | none =>
        injection h with h
        subst h
        refine ⟨fun _ h => by (injection h), fun h => by (cases h), fun d hd => by (cases hd), ?_, ?_, rfl, rfl, rfl⟩
        · intro v va hm
          exact ((hdrop _ _ _ _).1 hm).1
        · intro v va hm
          by_cases hv : v = c.name
          · exact Or.inr (Or.inr ⟨c, rfl, hv.symm⟩)
          · exact Or.inl ((hdrop _ _ _ _).2 ⟨hm, hv⟩)
      | some d =>
        injection h with h
        subst h
        refine ⟨fun _ h => by (injection h), fun h => by (cases h), ?_, ?_, ?_, rfl, rfl, rfl⟩
        · intro e he va hm
          injection he with he
          subst he
          exact ((hdrop _ _ _ _).1 hm).2 rfl
        · intro v va hm
          exact ((hdrop _ _ _ _).1 ((hdrop _ _ _ _).1 hm).1).1
        · intro v va hm
          by_cases hv : v = c.name
          · exact Or.inr (Or.inr ⟨c, rfl, hv.symm⟩)
          · by_cases hv' : v = d.name
            · exact Or.inr (Or.inl ⟨d, rfl, hv'.symm⟩)
            · exact Or.inl ((hdrop _ _ _ _).2 ⟨(hdrop _ _ _ _).2 ⟨hm, hv⟩, hv'⟩)

/-- **C82.** When a field is written, its data variables refer to its coordinate system, which is written under its name.  The other
attributes are written as they are, except that longitudes and latitudes without units or standard name get them. -/
theorem C82_written (G : Gdal) (f : Field) (c : Crs) (hc : f.crs = some c) :
    (∃ as, (c.name, as) ∈ write G none f) ∧
    (∀ v va, (v, va) ∈ f.vars → ∃ va', (v, va') ∈ write G none f ∧ (v ∈ f.data → va'.lookup "grid_mapping" = some (.text c.name)) ∧
      (v ∉ f.data → va'.lookup "grid_mapping" = va.lookup "grid_mapping") ∧
      (∀ p, p ≠ "grid_mapping" → (va.lookup p).isSome ∨ (p ≠ "standard_name" ∧ p ≠ "units") → va'.lookup p = va.lookup p) ∧
      (c.sys = .wgs84 ∨ c.sys = .sphere ∨ c.sys = .cf .spherical → some v = f.x → some v ≠ f.y →
        va'.lookup "units" = some ((va.lookup "units").getD (.text "degrees_east")) ∧
        va'.lookup "standard_name" = some ((va.lookup "standard_name").getD (.text "longitude"))) ∧
      (c.sys = .wgs84 ∨ c.sys = .sphere ∨ c.sys = .cf .spherical → some v = f.y → some v ≠ f.x →
        va'.lookup "units" = some ((va.lookup "units").getD (.text "degrees_north")) ∧
        va'.lookup "standard_name" = some ((va.lookup "standard_name").getD (.text "latitude")))) := by
  have hw : write G none f = (formatField c f).vars ++ [(c.name, crsAttrs G c)] := by
    unfold write toFile
    simp only [hc]
    have : (formatField c f).crs = some c := hc
    rw [this]
  have hadd : ∀ key (w : Val) (as : Attrs), (addAttr key w as).lookup key = some ((as.lookup key).getD w) := by
    intro key w as
    unfold addAttr
    split
    · rename_i h
      obtain ⟨u, hu⟩ := Option.isSome_iff_exists.1 h
      rw [hu]; rfl
    · rename_i h
      have hnone := Option.not_isSome_iff_eq_none.1 h
      rw [lookup_append_none hnone, hnone]
      simp
  have haddk : ∀ key (w : Val) (as : Attrs) p, (as.lookup p).isSome → (addAttr key w as).lookup p = as.lookup p := by
    intro key w as p h
    obtain ⟨u, hu⟩ := Option.isSome_iff_exists.1 h
    unfold addAttr
    split
    · rfl
    · rw [hu]; exact lookup_append_some hu
  have hset : ∀ p, p ≠ "grid_mapping" → ∀ v (va : Attrs),
      (if f.data.contains v = true then setAttr "grid_mapping" (.text c.name) va else va).lookup p = va.lookup p := by
    intro p hp v va
    split
    · exact lookup_setAttr_ne hp _ _
    · rfl
  have hcf : c.sys = .wgs84 ∨ c.sys = .sphere ∨ c.sys = .cf .spherical → hasCfAttrs c.sys = true := by
    rintro (h | h | h) <;> rw [h] <;> rfl
  refine ⟨⟨_, by rw [hw]; simp; right; rfl⟩, ?_⟩
  intro v va hv
  refine ⟨formatted c f v va, ?_, ?_, ?_, ?_, ?_, ?_⟩
  · rw [hw, formatField_vars]
    exact List.mem_append.2 (Or.inl (List.mem_map.2 ⟨(v, va), hv, rfl⟩))
  · intro h
    rw [formatted_mapping, if_pos h]
  · intro h
    rw [formatted_mapping, if_neg h]
  · rintro p hp (hs | hs)
    · unfold formatted
      simp only
      have h0 := hset p hp v va
      have h0s : ((if f.data.contains v = true then setAttr "grid_mapping" (.text c.name) va else va).lookup p).isSome = true := by
        rw [h0]; exact hs
      revert h0 h0s
      generalize (if f.data.contains v = true then setAttr "grid_mapping" (.text c.name) va else va) = a
      intro h0 h0s
      have key : ∀ (s u : Val) (b : Attrs), (b.lookup p).isSome → (addAttr "standard_name" s (addAttr "units" u b)).lookup p = b.lookup p := by
        intro s u b hb
        rw [haddk _ _ _ _ (by rw [haddk _ _ _ _ hb]; exact hb), haddk _ _ _ _ hb]
      split
      · split
        · split
          · rw [key _ _ _ (by rw [key _ _ _ h0s]; exact h0s), key _ _ _ h0s, h0]
          · rw [key _ _ _ h0s, h0]
        · split
          · rw [key _ _ _ h0s, h0]
          · exact h0
      · exact h0
    · exact formatted_lookup hp (fun _ => hs)
  · intro hs hx hy
    unfold formatted
    simp only [hcf hs, if_true, if_pos hx, if_neg hy]
    constructor
    · rw [lookup_addAttr_ne (by decide), hadd, hset _ (by decide)]
    · rw [hadd, lookup_addAttr_ne (by decide), hset _ (by decide)]
  · intro hs hy hx
    unfold formatted
    simp only [hcf hs, if_true, if_pos hy, if_neg hx]
    constructor
    · rw [lookup_addAttr_ne (by decide), hadd, hset _ (by decide)]
    · rw [hadd, lookup_addAttr_ne (by decide), hset _ (by decide)]

/-- **C82.** A projection or rotated pole that is written is read back as it is: class, name, parameters and projection coordinates.
Missing: other coordinate systems do not keep all parameters, see the counterexamples below. -/
theorem C82_roundtrip_partial (G : Gdal) (f : Field) (c : Crs) (hc : f.crs = some c) (hf : CleanField f) (k : Kind) (hk : k ≠ .spherical)
    (hsys : c.sys = .cf k) (made : ∃ ps, construct k c.name ps c.px c.py = .ok c) (hs : Storable c.params)
    (hfound : CanBeFound f k c.name) (hname : c.name ≠ "latitude_longitude")
    (hxy : k ≠ .rotated → ∃ px py xa, c.px = some px ∧ c.py = some py ∧ FirstWith "projection_x_coordinate" f.vars px ∧
      FirstWith "projection_y_coordinate" f.vars py ∧ (px, xa) ∈ f.vars ∧ (k = .lambert → c.params.lookup "units" = xa.lookup "units"))
    (hrot : k = .rotated → c.px = none ∧ c.py = none) :
    getCrs G true (write G none f) = .ok c ∧ (k ≠ .rotated → getCrs G false (write G none f) = .ok c) := by
  obtain ⟨hw, hcrs, hdata⟩ := write_none G hc
  have hcf : hasCfAttrs c.sys = false := by
    rw [hsys]; cases k <;> first | rfl | exact absurd rfl hk
  have hone : OneMapping (write G none f) k c.name (crsAttrs G c) := by
    rw [hw]
    exact toFile_one G hcrs hsys (by rw [formatted_names]; exact hf.names) (by rw [formatted_names]; exact hf.free c hc)
      (formatted_clean hf) hs (formatted_found hfound) (Or.inr hname)
  obtain ⟨ps, hps⟩ := made
  obtain ⟨hagain, _, hunits⟩ := construct_again hps
  have hdrop : dropAttr "grid_mapping_name" (crsAttrs G c) = c.params := by
    rw [crsAttrs_cf G hsys hs]
    have : dropAttr "grid_mapping_name" (("grid_mapping_name", Val.text (gmName k)) :: c.params) = dropAttr "grid_mapping_name" c.params := by
      simp [dropAttr]
    rw [this, dropAttr_none hs.names.1]
  have htrue : getCrs G true (write G none f) = .ok c := by
    rw [getCrsVariable_one G hone]
    by_cases hr : k = .rotated
    · subst hr
      rw [matched_rotated]
      have : paramsFrom .rotated (crsAttrs G c) none (write G none f) = c.params := by
        unfold paramsFrom
        simp only [hdrop]
        rfl
      rw [this, ← (hrot rfl).1]
      conv => lhs; arg 5; rw [(hrot rfl).1, ← (hrot rfl).2]
      exact hagain
    · obtain ⟨px, py, xa, e1, e2, h1, h2, h3, h4⟩ := hxy hr
      rw [matched_planar hk hr (first_written G hc hcf h1) (first_written G hc hcf h2)]
      have : paramsFrom k (crsAttrs G c) (some px) (write G none f) = c.params := by
        unfold paramsFrom
        simp only [hdrop]
        split
        · rename_i hl
          have hlook : (write G none f).lookup px = some (formatted c f px xa) := by
            apply crsLookup_of_mem hone.names
            rw [hw]
            unfold toFile
            rw [hcrs]
            simp only
            rw [formatField_vars]
            exact List.mem_append.2 (Or.inl (List.mem_map.2 ⟨(px, xa), h3, rfl⟩))
          rw [Option.bind_some, hlook, Option.getD_some, formatted_lookup (by decide) (fun h => by rw [hcf] at h; cases h), ← h4 hl]
          obtain ⟨u, hu⟩ := Option.isSome_iff_exists.1 (hunits hl)
          rw [hu]
          exact setAttr_same hs.keys hu
        · rfl
      rw [this, ← e1, ← e2]
      exact hagain
  refine ⟨htrue, ?_⟩
  intro hr
  rw [getCrs_false G _ c htrue, if_neg]
  rintro ⟨h, _⟩
  rw [hsys] at h
  injection h with h
  exact hr h

/-- **C82.** The spherical grid mapping is read back. -/
theorem C82_roundtrip_spherical_partial (G : Gdal) (priority : Bool) (f : Field) (hc : f.crs = some cfSpherical) (hf : CleanField f) :
    getCrs G priority (write G none f) = .ok cfSpherical := by
  obtain ⟨hw, hcrs, hdata⟩ := write_none G hc
  have hs : Storable cfSpherical.params := ⟨by decide, by simp [cfSpherical], by decide⟩
  have hfree := hf.free _ hc
  have hone : OneMapping (write G none f) .spherical cfSpherical.name (crsAttrs G cfSpherical) := by
    rw [hw]
    refine toFile_one G hcrs rfl (by rw [formatted_names]; exact hf.names) (by rw [formatted_names]; exact hfree)
      (formatted_clean hf) hs (formatted_found ?_) (Or.inl rfl)
    refine Or.inr ⟨by decide, ?_⟩
    intro v va hv hu
    have hv' : v = "latitude_longitude" := by simpa [usualNames, cfName] using hu
    subst hv'
    exact hfree (List.mem_map.2 ⟨_, hv, rfl⟩)
  have htrue : getCrs G true (write G none f) = .ok cfSpherical := by
    rw [getCrsVariable_one G hone]
    rfl
  cases priority with
  | true => exact htrue
  | false =>
    rw [getCrs_false G _ _ htrue, if_neg]
    rintro ⟨h, _⟩
    cases h

/-- **C82.** Any other coordinate system is read back from its PROJ.4 text, with its name. -/
theorem C82_roundtrip_text_partial (G : Gdal) (priority : Bool) (f : Field) (c : Crs) (hc : f.crs = some c) (hf : CleanField f)
    (hsys : ∀ k, c.sys ≠ .cf k) (hname : c.name ≠ "latitude_longitude" ∨ ∀ v va, (v, va) ∈ f.vars → v ∉ f.data) :
    ∃ d, getCrs G priority (write G none f) = .ok d ∧ d.sys = .plain ∧ d.name = c.name ∧
      (c.sys ≠ .wgs84 → d.value = G.fromText (G.toText c.value)) ∧
      (c.sys = .wgs84 → d.value = G.fromText "+proj=longlat +ellps=WGS84 +towgs84=0,0,0,0,0,0,0 +no_defs ") := by
  obtain ⟨hw, hcrs, hdata⟩ := write_none G hc
  have hattr : crsAttrs G c = [("proj4", .text (proj4Text G c)), ("ocgis_role", .text "coordinate_system")] := by
    unfold crsAttrs
    cases hs : c.sys with
    | cf k => exact absurd hs (hsys k)
    | sphere => rfl
    | wgs84 => rfl
    | plain => rfl
  have hfile : write G none f = (formatField c f).vars ++ [(c.name, crsAttrs G c)] := by
    rw [hw]; unfold toFile; rw [hcrs]
  have hmem : ∀ v va, (v, va) ∈ write G none f ↔ (v, va) ∈ (formatField c f).vars ∨ (v = c.name ∧ va = crsAttrs G c) := by
    intro v va
    rw [hfile, List.mem_append, List.mem_singleton, Prod.mk.injEq]
  have hclean := formatted_clean (c := c) hf
  have hn : ((write G none f).map Prod.fst).Nodup := by
    rw [hfile, List.map_append, List.nodup_append, formatted_names]
    refine ⟨hf.names, by simp, ?_⟩
    intro a ha b hb
    simp only [List.map_cons, List.map_nil, List.mem_singleton] at hb
    subst hb
    intro h
    subst h
    exact hf.free c hc ha
  have hno : NoMapping (write G none f) := by
    constructor
    · rintro k g as ⟨hm, hl⟩
      rcases (hmem _ _).1 hm with h | ⟨_, h⟩
      · rw [(hclean _ _ h).1] at hl; cases hl
      · rw [h, hattr] at hl
        simp [List.lookup_cons] at hl
    · intro v va hm hl
      rcases (hmem _ _).1 hm with h | ⟨_, h⟩
      · by_cases hv : v ∈ f.data
        · rw [(hclean _ _ h).2.1 hv] at hl
          rcases hname with hname | hname
          · injection hl with hl
            injection hl with hl
            exact hname hl
          · obtain ⟨va₀, hm₀, _⟩ := formatted_mem h
            exact hname _ _ hm₀ hv
        · rw [(hclean _ _ h).2.2 hv] at hl; cases hl
      · rw [h, hattr] at hl
        simp [List.lookup_cons] at hl
  have hholds : Holds (write G none f) c.name (proj4Text G c) :=
    ⟨crsAttrs G c, (hmem _ _).2 (Or.inr ⟨rfl, rfl⟩), by rw [hattr]; rfl, by rw [hattr]; rfl⟩
  have honly : ∀ g' t', Holds (write G none f) g' t' → g' = c.name := by
    rintro g' t' ⟨as, hm, h1, h2⟩
    rcases (hmem _ _).1 hm with h | ⟨h, _⟩
    · obtain ⟨va₀, hm₀, rfl⟩ := formatted_mem h
      rw [formatted_lookup (by decide) (fun _ => by decide)] at h1
      exact absurd h1 (hf.unmarked _ _ hm₀).2.1
    · exact h
  obtain ⟨d, h1, h2, h3, h4⟩ := (C82_unmarked G priority _ hn hno).2.1 _ _ hholds honly
  refine ⟨d, h1, h2, h3, ?_, ?_⟩
  · intro h; rw [h4]; unfold proj4Text; rw [if_neg h]
  · intro h; rw [h4]; unfold proj4Text; rw [if_pos h]

/-- **C82.** A file has the coordinate system of the field, whatever was done before, as long as no file with a rotated pole was opened.
Missing: this is false after such a file, see `C82_history_counterexample`. -/
theorem C82_history_partial (G : Gdal) (ops : List Op)
    (h : ∀ vars c, Op.openFile false vars ∈ ops → getCrs G true vars = .ok c → c.sys ≠ .cf .rotated) :
    (run G ops).files = ops.filterMap fun op => match op with
      | .writeField path f => some (path, write G none f)
      | .openFile _ _ => none := by
  have key : ∀ (ops : List Op) (p : Process), p.actual = none →
      (∀ vars c, Op.openFile false vars ∈ ops → getCrs G true vars = .ok c → c.sys ≠ .cf .rotated) →
      (ops.foldl (step G) p).files = p.files ++ ops.filterMap fun op => match op with
        | .writeField path f => some (path, write G none f)
        | .openFile _ _ => none := by
    intro ops
    induction ops with
    | nil => intro p _ _; simp
    | cons op rest ih =>
      intro p hp hops
      rw [List.foldl_cons]
      cases op with
      | openFile priority vars =>
        have hr : remember G priority vars p.actual = p.actual := by
          apply remember_keeps
          intro c hpr hg
          subst hpr
          exact hops vars c (by simp) hg
        rw [ih _ (by simp only [step, hr]; exact hp) (fun vars c hm => hops vars c (List.mem_cons_of_mem _ hm))]
        simp [step]
      | writeField path f =>
        rw [ih _ (by simp only [step, hp]) (fun vars c hm => hops vars c (List.mem_cons_of_mem _ hm))]
        simp [step, hp]
  rw [run, key ops {} rfl h]
  rfl

/-- **C82.** A field that is read from a file with a rotated pole and written at once has that rotated pole in the file written, also if
the file has longitudes and latitudes and the field is spherical. -/
theorem C82_rotated_kept (G : Gdal) (before : List Op) (f f' : Field) (g : String) (as : Attrs) (hs : OneMapping f.vars .rotated g as)
    (hother : ∀ v va, (v, va) ∈ f.vars → v ≠ g → va.lookup "grid_mapping_name" = none ∧
      va.lookup "ocgis_role" ≠ some (.text "coordinate_system") ∧ (v ∉ f.data → va.lookup "grid_mapping" = none))
    (hdata : ∃ v va, (v, va) ∈ f.vars ∧ v ∈ f.data ∧ v ≠ g ∧ v ≠ "latitude_longitude") (raw : Crs) (hraw : getCrs G true f.vars = .ok raw)
    (hstore : Storable raw.params) (h : createField G false .auto f = .ok f') (hsph : f'.crs = some cfSpherical) (path : String) :
    ∃ out, (path, out) ∈ (run G (before ++ [.openFile false f.vars, .writeField path f'])).files ∧ getCrs G true out = .ok raw := by
  have hmatch := getCrsVariable_one G hs
  rw [hraw] at hmatch
  have hrn := matched_name (by decide) hmatch.symm
  have hrx : raw.px = none ∧ raw.py = none ∧ ∃ ps, construct .rotated raw.name ps raw.px raw.py = .ok raw := by
    have hm := hmatch.symm
    rw [matched_rotated] at hm
    have hm' := hm
    unfold construct at hm'
    split at hm'
    · cases hm'
    · injection hm' with hm'
      have h1 : raw.px = none := by rw [← hm']
      have h2 : raw.py = none := by rw [← hm']
      exact ⟨h1, h2, _, by rw [h1, h2, hrn.1]; exact hm⟩
  -- the file as a field
  unfold createField at h
  cases hg : getCrs G false f.vars with
  | error e => rw [hg] at h; cases h
  | ok c =>
    rw [hg] at h
    injection h with h
    subst h
    injection hsph with hsph
    subst hsph
    have hrem : ∀ actual, remember G false f.vars actual = some raw := by
      intro actual
      unfold remember
      rw [hraw, hg]
      simp only [hrn.2]
      rfl
    refine ⟨write G (some raw) { f with vars := dropVar cfSpherical.name f.vars, crs := some cfSpherical }, ?_, ?_⟩
    · unfold run
      rw [List.foldl_append]
      simp only [List.foldl_cons, List.foldl_nil, step, hrem]
      exact List.mem_append.2 (Or.inr (List.mem_singleton.2 rfl))
    · -- what is written
      generalize hf1 : formatField cfSpherical { f with vars := dropVar cfSpherical.name f.vars, crs := some cfSpherical } = f₁
      have hf1m : ∀ v va, (v, va) ∈ f₁.vars → ∃ va₀, (v, va₀) ∈ f.vars ∧ v ≠ "latitude_longitude" ∧
          va = formatted cfSpherical { f with vars := dropVar cfSpherical.name f.vars, crs := some cfSpherical } v va₀ := by
        intro v va hm
        rw [← hf1] at hm
        obtain ⟨va₀, hm₀, he⟩ := formatted_mem hm
        have := dropVar_mem.1 hm₀
        exact ⟨va₀, this.1, this.2, he⟩
      have hf1n : (f₁.vars.map Prod.fst).Nodup := by
        rw [← hf1, formatted_names]
        exact (dropVar_names hs.names).1
      have hf1d : f₁.data = f.data := by rw [← hf1]; rfl
      have hw : write G (some raw) { f with vars := dropVar cfSpherical.name f.vars, crs := some cfSpherical } =
          write G none { f₁ with vars := dropVar raw.name f₁.vars, crs := some raw } := by
        unfold write
        simp only [hf1]
        rfl
      rw [hw]
      have hunm : ∀ v va, (v, va) ∈ dropVar raw.name f₁.vars → ∃ va₀, (v, va₀) ∈ f.vars ∧ v ≠ g ∧
          va = formatted cfSpherical { f with vars := dropVar cfSpherical.name f.vars, crs := some cfSpherical } v va₀ := by
        intro v va hm
        have hd := dropVar_mem.1 hm
        obtain ⟨va₀, h1, _, h3⟩ := hf1m v va hd.1
        exact ⟨va₀, h1, by rw [← hrn.1]; exact hd.2, h3⟩
      have hnot : raw.name ≠ "latitude_longitude" := by
        rw [hrn.1]
        exact hs.notSpherical.resolve_left (by decide)
      have hclean : CleanField { f₁ with vars := dropVar raw.name f₁.vars, crs := some raw } := by
        refine ⟨(dropVar_names hf1n).1, ?_, ?_⟩
        · intro c hc
          injection hc with hc
          subst hc
          exact (dropVar_names hf1n).2
        · intro v va hm
          obtain ⟨va₀, h1, h2, h3⟩ := hunm v va hm
          subst h3
          obtain ⟨o1, o2, o3⟩ := hother v va₀ h1 h2
          refine ⟨?_, ?_, ?_⟩
          · rw [formatted_lookup (by decide) (fun _ => by decide)]; exact o1
          · rw [formatted_lookup (by decide) (fun _ => by decide)]; exact o2
          · intro hv
            have hv' : v ∉ f.data := by rw [← hf1d]; exact hv
            rw [formatted_mapping, if_neg hv']
            exact o3 hv'
      refine (C82_roundtrip_partial G _ raw rfl hclean .rotated (by decide) hrn.2 hrx.2.2 hstore ?_ hnot (fun h => absurd rfl h)
        (fun _ => ⟨hrx.1, hrx.2.1⟩)).1
      obtain ⟨v, va, hv, hd, hvg, hvl⟩ := hdata
      refine Or.inl ⟨v, formatted cfSpherical { f with vars := dropVar cfSpherical.name f.vars, crs := some cfSpherical } v va, ?_, ?_⟩
      · refine dropVar_mem.2 ⟨?_, by rw [hrn.1]; exact hvg⟩
        rw [← hf1, formatField_vars]
        exact List.mem_map.2 ⟨(v, va), dropVar_mem.2 ⟨hv, hvl⟩, rfl⟩
      · show v ∈ f₁.data
        rw [hf1d]; exact hd

/-! ### Counterexamples and examples -/

/-- The rotated pole of the file. -/
def rotatedCrs : Crs :=
  { sys := .cf .rotated, name := "rotated_pole", value := [("proj", .text "omerc")],
    params := [("grid_north_pole_latitude", .num 39), ("grid_north_pole_longitude", .num (-162))] }

example (G : Gdal) : getCrs G true lambertFile = .ok lambertCrs ∧ createField G true .auto (fieldOf lambertFile) = .ok lambertField :=
  ⟨rfl, rfl⟩
example (G : Gdal) : getCrs G true crsRotatedFile = .ok rotatedCrs ∧ getCrs G false crsRotatedFile = .ok cfSpherical := ⟨rfl, rfl⟩

example : OneMapping lambertFile .lambert "Lambert_Conformal" (lambertFile.getLast (by decide)).2 ∧
    (∀ p ∈ Needs .lambert, ((lambertFile.getLast (by decide)).2.lookup p).isSome) ∧
    FirstWith "projection_x_coordinate" lambertFile "xc" ∧ FirstWith "projection_y_coordinate" lambertFile "yc" :=
  ⟨lambert_one, by decide, (firstWith_iff _ _ _).2 rfl, (firstWith_iff _ _ _).2 rfl⟩

example : OneMapping crsRotatedFile .rotated "rotated_pole" (crsRotatedFile.getLast (by decide)).2 ∧
    (∀ p ∈ Needs .rotated, ((crsRotatedFile.getLast (by decide)).2.lookup p).isSome) := ⟨rotated_one, by decide⟩

example : CleanField lambertField ∧ (∃ ps, construct .lambert lambertCrs.name ps lambertCrs.px lambertCrs.py = .ok lambertCrs) ∧
    Storable lambertCrs.params ∧ CanBeFound lambertField .lambert lambertCrs.name ∧
    FirstWith "projection_x_coordinate" lambertField.vars "xc" ∧ FirstWith "projection_y_coordinate" lambertField.vars "yc" ∧
    lambertCrs.params.lookup "units" = some (.text "km") := by
  refine ⟨lambert_clean, ⟨lambertCrs.params, rfl⟩, ⟨by decide, ?_, by decide⟩,
    Or.inl ⟨"tas", [("grid_mapping", .text "Lambert_Conformal"), ("units", .text "K")], by decide, by decide⟩,
    (firstWith_iff _ _ _).2 rfl, (firstWith_iff _ _ _).2 rfl, rfl⟩
  intro k h
  simp [lambertCrs] at h

example (G : Gdal) : getCrs G true (write G none lambertField) = .ok lambertCrs := rfl

/-- **C82.** The shape of the Earth in the file is ignored, for spherical grid mappings as for projections. -/
theorem C82_radius_counterexample (G : Gdal) :
    getCrs G true [("tas", [("grid_mapping", .text "crs")]),
      ("crs", [("grid_mapping_name", .text "latitude_longitude"), ("semi_major_axis", .num 6378137), ("semi_minor_axis", .num 6356752)])] =
      .ok cfSpherical ∧
    cfSpherical.value.lookup "a" = some (.num 6370997) ∧
    (∃ c, getCrs G true lambertFile = .ok c ∧ c.value.lookup "a" = none ∧ c.value.lookup "R" = none) :=
  ⟨rfl, rfl, _, rfl, rfl, rfl⟩

/-- **C82.** The radius of a `Spherical` coordinate system is not read back. -/
theorem C82_sphere_counterexample (G : Gdal) :
    ∃ f c, f.crs = some c ∧ c.value.lookup "a" = some (.num 6371229) ∧ CleanField f ∧
      ∃ d, getCrs G true (write G none f) = .ok d ∧ d.value.lookup "a" = some (.num 6370997) := by
  refine ⟨{ vars := [("tas", [])], data := ["tas"],
            crs := some { sys := .sphere, name := "latitude_longitude", value := sphereValue 6371229 } }, _, rfl, rfl, ?_, _, rfl, rfl⟩
  refine ⟨by decide, ?_, ?_⟩
  · intro c hc
    injection hc with hc
    subst hc
    decide
  · intro v va hm
    have hm' : (v, va) = ("tas", []) := by simpa using hm
    injection hm' with h1 h2
    subst h1; subst h2
    decide

/-- **C82.** Two rotated poles compare equal, wherever the poles are. -/
theorem C82_equal_counterexample (G : Gdal) :
    ∃ v₁ v₂ c₁ c₂, getCrs G true v₁ = .ok c₁ ∧ getCrs G true v₂ = .ok c₂ ∧
      c₁.params.lookup "grid_north_pole_latitude" ≠ c₂.params.lookup "grid_north_pole_latitude" ∧ equal G c₁ c₂ = true := by
  refine ⟨crsRotatedFile, [("tas", [("grid_mapping", .text "rotated_pole")]),
    ("rotated_pole", [("grid_mapping_name", .text "rotated_latitude_longitude"), ("grid_north_pole_latitude", .num 10),
     ("grid_north_pole_longitude", .num 20)])], _, _, rfl, rfl, by decide, ?_⟩
  unfold equal
  have : ([("proj", Val.text "omerc")] == [("proj", Val.text "omerc")]) = true := by decide
  show (_ || ([("proj", Val.text "omerc")] == [("proj", Val.text "omerc")]) || _) = true
  rw [this]
  simp

/-- **C82.** A coordinate system that is asked for is not the one read back when the file has a spherical grid mapping of another name:
the file written has both, and cannot be opened. -/
theorem C82_assigned_counterexample (G : Gdal) :
    ∃ f f' c, createField G true (.given (some c)) f = .ok f' ∧ f'.crs = some c ∧
      getCrs G true (write G none f') = .error .valueError := by
  refine ⟨fieldOf [("tas", [("grid_mapping", .text "crs")]), ("crs", [("grid_mapping_name", .text "latitude_longitude")]),
    ("xc", [("standard_name", .text "projection_x_coordinate"), ("units", .text "km")]),
    ("yc", [("standard_name", .text "projection_y_coordinate"), ("units", .text "km")])], _, lambertCrs, rfl, rfl, rfl⟩

/-- **C82.** A coordinate system that is asked for does not help if that of the file cannot be read. -/
theorem C82_given_counterexample (G : Gdal) :
    createField G true (.given (some cfSpherical))
      (fieldOf [("tas", [("grid_mapping", .text "crs")]), ("crs", [("grid_mapping_name", .text "polar_stereographic")])]) =
      .error .projectionCoordinateNotFound := rfl

/-- **C82.** After a file with a rotated pole was opened, every file written has that rotated pole, whatever its field has. -/
theorem C82_history_counterexample (G : Gdal) :
    ∃ out, (run G [.openFile false crsRotatedFile, .writeField "out.nc" lambertField]).files = [("out.nc", out)] ∧
      getCrs G true out = .ok rotatedCrs ∧ out.lookup "Lambert_Conformal" = none := ⟨_, rfl, rfl, rfl⟩

/-- **C82.** A field that is transformed to a projection is written to a file that cannot be opened. -/
theorem C82_transformed_counterexample (G : Gdal) :
    ∃ f : Field, f.crs = some cfSpherical ∧ getCrs G true (write G none (updateCrs lambertCrs f)) = .error .projectionCoordinateNotFound := by
  refine ⟨{ vars := [("tas", []), ("lon", [("standard_name", .text "longitude"), ("units", .text "degrees_east")]),
      ("lat", [("standard_name", .text "latitude"), ("units", .text "degrees_north")])],
            data := ["tas"], x := some "lon", y := some "lat", crs := some cfSpherical }, rfl, rfl⟩

/-- **C82.** Longitudes that were computed from a projection still have its units and standard names. -/
theorem C82_units_counterexample (G : Gdal) :
    ∃ xa, (write G none (updateCrs cfSpherical lambertField)).lookup "xc" = some xa ∧ xa.lookup "units" = some (.text "km") ∧
      xa.lookup "standard_name" = some (.text "projection_x_coordinate") := ⟨_, rfl, rfl, rfl⟩

/-- **C82.** Without data variables, a projection is read back as a sphere. -/
theorem C82_no_data_counterexample (G : Gdal) :
    getCrs G true (write G none { lambertField with data := [], vars := lambertField.vars.drop 1 }) = .ok cfSpherical := rfl

example : ∃ f : Field, f.crs = some cfSpherical ∧ CleanField f ∧ f.data = ["tas"] := by
  refine ⟨{ vars := [("tas", [])], data := ["tas"], crs := some cfSpherical }, rfl, ⟨by decide, ?_, ?_⟩, rfl⟩
  · intro c hc
    injection hc with hc
    subst hc
    decide
  · intro v va hm
    have hm' : (v, va) = ("tas", []) := by simpa using hm
    injection hm' with h1 h2
    subst h1; subst h2
    decide

example (G : Gdal) : ∃ f', createField G false .auto (fieldOf crsRotatedFile) = .ok f' ∧ f'.crs = some cfSpherical ∧
    getCrs G true crsRotatedFile = .ok rotatedCrs ∧ OneMapping crsRotatedFile .rotated "rotated_pole" (crsRotatedFile.getLast (by decide)).2 :=
  ⟨_, rfl, rfl, rfl, rotated_one⟩

/-- Two grid mappings are refused. -/
example (G : Gdal) : getCrs G true (lambertFile ++ [("pr", [("grid_mapping", .text "rotated_pole")])] ++ crsRotatedFile.drop 3) =
    .error .valueError := rfl

/-- A PROJ.4 text is read. -/
example (G : Gdal) : getCrs G true [("tas", [("grid_mapping", .text "crs")]),
    ("crs", [("proj4", .text "+proj=utm"), ("ocgis_role", .text "coordinate_system")])] =
    .ok { sys := .plain, name := "crs", value := G.fromText "+proj=utm" } := rfl

end Ocgis.Props
