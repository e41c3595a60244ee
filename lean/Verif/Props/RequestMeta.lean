import Verif.Proofs.RequestMeta
/-!
# C81: request datasets
-/
namespace Ocgis.Props
open Ocgis Ocgis.RequestMeta Ocgis.Spec

/-- **C81, in part.** Renaming: the field has every variable of the file, those asked for under their new names and the others under their
own, and the data variables are the new names.  What is missing: lists of other lengths, names that are in use, and metadata that are
given; see the counterexamples. -/
theorem C81_rename_partial (valid : String → Bool) (equiv : Option String → String → Bool) (req : Req) (found : List String)
    (m m' : Meta) (hm : FileNames m) (vs ns : List String) (hv : About req found m vs) (hf : ∀ v ∈ found, v ∈ m.map Prod.fst)
    (hr : req.rename = some ns) (hg : UsableNames vs ns m) (h : request valid equiv false req found m = .ok m') :
    ∃ f, createField req found m' = .ok (f, ns) ∧ ∀ n k, f.lookup n = some k ↔ k ∈ m.map Prod.fst ∧ Renamed vs ns k n := by
  obtain ⟨hvn, hnn, hl, hc⟩ := hg
  obtain ⟨m₁, m₂, h₁, h₂, h₃⟩ := request_ok h
  have hns : ns ≠ [] := by
    rintro rfl
    cases vs with
    | nil => exact hv.1 rfl
    | cons _ _ => simp at hl
  have hkeys : m'.map Prod.fst = m.map Prod.fst := by
    rw [setConform_keys h₃, setUnits_keys h₂, loadMeta_keys h₁]
  have hm₁ : m₁ = changeAll (fun n x => { x with name := n }) vs ns m := by
    unfold loadMeta at h₁
    rw [hr] at h₁
    simp only [Bool.false_eq_true, if_false, (variablesOf_iff req found m hf vs).2 hv, hns] at h₁
    cases h₁
    rfl
  have hname : ∀ k, k ∈ m'.map Prod.fst → (m'.lookup k).map VMeta.name = some (nameAfter vs ns k) := by
    intro k hk
    rw [hkeys] at hk
    rw [setConform_name h₃, setUnits_name h₂, hm₁]
    obtain ⟨⟨k', x⟩, hmem, hk'⟩ := List.mem_map.1 hk
    simp only at hk'
    subst hk'
    have hlk := (rmLookup_iff hm.1 k' x).2 hmem
    by_cases hkv : k' ∈ vs
    · have : ∃ n, (k', n) ∈ vs.zip ns := by
        rw [← zip_keys hl] at hkv
        obtain ⟨⟨a, n⟩, h1, h2⟩ := List.mem_map.1 hkv
        simp only at h2
        subst h2
        exact ⟨n, h1⟩
      obtain ⟨n, hz⟩ := this
      rw [changeAll_mem _ vs ns m hvn k' n hz, hlk]
      simp only [Option.map_some, Option.some.injEq]
      exact ((nameAfter_iff hl hvn k' n).2 (Or.inl hz)).symm
    · rw [changeAll_not_mem _ _ _ _ _ hkv, hlk]
      simp only [Option.map_some, Option.some.injEq]
      rw [hm.2 k' x hmem]
      exact ((nameAfter_iff hl hvn k' k').2 (Or.inr ⟨hkv, rfl⟩)).symm
  have hinj : ∀ k k', k ∈ m'.map Prod.fst → k' ∈ m'.map Prod.fst → nameAfter vs ns k = nameAfter vs ns k' → k = k' := by
    intro k k' hk hk' he
    rw [hkeys] at hk hk'
    have r1 := (nameAfter_iff hl hvn k _).1 rfl
    have r2 := (nameAfter_iff hl hvn k' _).1 rfl
    rw [← he] at r2
    generalize nameAfter vs ns k = n at r1 r2
    rcases r1 with r1 | ⟨r1, rfl⟩ <;> rcases r2 with r2 | ⟨r2, r3⟩
    · exact zip_inj hnn r1 r2
    · subst r3; exact absurd (hc n (List.of_mem_zip r1).2 hk') r2
    · exact absurd (hc n (List.of_mem_zip r2).2 hk) r1
    · exact r3
  refine ⟨fieldVars m' [], ?_, ?_⟩
  · unfold createField newNames
    rw [hr]
    simp only [hns, if_false]
    rw [appendTags_ok ns [] (by simpa using hnn)]
    rfl
  · intro n k
    rw [fieldVars_names m' (by rw [hkeys]; exact hm.1) (nameAfter vs ns) hname hinj, hkeys, nameAfter_iff hl hvn]

/-- **C81.** Without renaming every variable has its own name, and the data variables are those the request is about. -/
theorem C81_names (valid : String → Bool) (equiv : Option String → String → Bool) (given : Bool) (req : Req) (found : List String)
    (m m' : Meta) (hm : FileNames m) (vs : List String) (hv : About req found m vs) (hf : ∀ v ∈ found, v ∈ m.map Prod.fst)
    (hn : vs.Nodup) (hr : req.rename = none) (h : request valid equiv given req found m = .ok m') :
    ∃ f, createField req found m' = .ok (f, vs) ∧ ∀ n k, f.lookup n = some k ↔ k ∈ m.map Prod.fst ∧ n = k := by
  obtain ⟨m₁, m₂, h₁, h₂, h₃⟩ := request_ok h
  have hm₁ : m₁ = m := by
    unfold loadMeta at h₁
    rw [hr] at h₁
    split at h₁ <;> cases h₁ <;> rfl
  subst hm₁
  have hkeys : m'.map Prod.fst = m₁.map Prod.fst := by
    rw [setConform_keys h₃, setUnits_keys h₂]
  refine ⟨fieldVars m' [], ?_, ?_⟩
  · unfold createField newNames
    rw [hr]
    simp only [variablesOf_keys req found m₁ m' hkeys, (variablesOf_iff req found m₁ hf vs).2 hv]
    rw [appendTags_ok vs [] (by simpa using hn)]
    rfl
  · intro n k
    rw [fieldVars_names m' (by rw [hkeys]; exact hm.1) id ?_ (fun _ _ _ _ h => h), hkeys]
    · exact and_congr_right fun _ => eq_comm
    · intro k hk
      rw [hkeys] at hk
      obtain ⟨⟨k', x⟩, hmem, hk'⟩ := List.mem_map.1 hk
      simp only at hk'
      subst hk'
      rw [setConform_name h₃, setUnits_name h₂, (rmLookup_iff hm.1 k' x).2 hmem]
      simp [hm.2 k' x hmem]

/-- **C81.** If the driver finds no data variables and none are asked for, there is a field with all variables and without data
variables. -/
theorem C81_no_data (valid : String → Bool) (equiv : Option String → String → Bool) (given : Bool) (req : Req)
    (m m' : Meta) (hm : FileNames m) (hw : req.wanted = none) (hr : req.rename = none)
    (h : request valid equiv given req [] m = .ok m') :
    ∃ f, createField req [] m' = .ok (f, []) ∧ ∀ n k, f.lookup n = some k ↔ k ∈ m.map Prod.fst ∧ n = k := by
  obtain ⟨m₁, m₂, h₁, h₂, h₃⟩ := request_ok h
  have hm₁ : m₁ = m := by
    unfold loadMeta at h₁
    rw [hr] at h₁
    split at h₁ <;> cases h₁ <;> rfl
  subst hm₁
  have hkeys : m'.map Prod.fst = m₁.map Prod.fst := by
    rw [setConform_keys h₃, setUnits_keys h₂]
  refine ⟨fieldVars m' [], ?_, ?_⟩
  · unfold createField newNames variablesOf
    rw [hr, hw]
    rfl
  · intro n k
    rw [fieldVars_names m' (by rw [hkeys]; exact hm.1) id ?_ (fun _ _ _ _ h => h), hkeys]
    · exact and_congr_right fun _ => eq_comm
    · intro k hk
      rw [hkeys] at hk
      obtain ⟨⟨k', x⟩, hmem, hk'⟩ := List.mem_map.1 hk
      simp only at hk'
      subst hk'
      rw [setConform_name h₃, setUnits_name h₂, (rmLookup_iff hm.1 k' x).2 hmem]
      simp [hm.2 k' x hmem]

example : request (fun _ => true) (fun _ _ => true) false {} [] [("lon", ⟨"lon", none, none⟩)] = .ok [("lon", ⟨"lon", none, none⟩)] := rfl

/-- **C81.** Units and target units are assigned to the variables in the order they are given; all other variables keep theirs. -/
theorem C81_units (valid : String → Bool) (equiv : Option String → String → Bool) (given : Bool) (req : Req) (found : List String)
    (m m' : Meta) (vs : List String) (hv : About req found m vs) (hf : ∀ v ∈ found, v ∈ m.map Prod.fst) (hn : vs.Nodup)
    (h : request valid equiv given req found m = .ok m') :
    (∀ us, req.units = some us → us.length = vs.length ∧ ∀ k u, (k, u) ∈ vs.zip us → (m'.lookup k).bind VMeta.units = some u) ∧
    (∀ k, req.units = none ∨ k ∉ vs → (m'.lookup k).bind VMeta.units = (m.lookup k).bind VMeta.units) ∧
    (∀ cs, req.conform = some cs → cs.length = vs.length ∧ ∀ k c, (k, c) ∈ vs.zip cs → (m'.lookup k).bind VMeta.conform = some c) ∧
    (∀ k, req.conform = none ∨ k ∉ vs → (m'.lookup k).bind VMeta.conform = (m.lookup k).bind VMeta.conform) := by
  obtain ⟨m₁, m₂, h₁, h₂, h₃⟩ := request_ok h
  have k₁ := loadMeta_keys h₁
  have k₂ := setUnits_keys h₂
  have hv₀ := (variablesOf_iff req found m hf vs).2 hv
  have hv₁ : variablesOf req found m₁ = .ok vs := by rw [variablesOf_keys _ _ _ _ k₁]; exact hv₀
  have hv₂ : variablesOf req found m₂ = .ok vs := by rw [variablesOf_keys _ _ _ _ k₂]; exact hv₁
  obtain ⟨a1, a2, a3⟩ := setUnits_units hv₁ hn h₂
  obtain ⟨b1, b2, b3⟩ := setConform_conform hv₂ hn h₃
  have hkey : ∀ (k : String) (us : List String) (n : String), (k, n) ∈ vs.zip us → k ∈ m.map Prod.fst := fun k us n hz => hv.2.1 k (List.of_mem_zip hz).1
  refine ⟨?_, ?_, ?_, ?_⟩
  · intro us hu
    refine ⟨(a1 us hu).1, fun k u hz => ?_⟩
    rw [b3, (a1 us hu).2 k u hz]
    exact bind_some_of_key (by rw [k₁]; exact hkey _ _ _ hz) u
  · intro k hk
    rw [b3, a2 k hk, (loadMeta_units h₁ k).1]
  · intro cs hc
    refine ⟨(b1 cs hc).1, fun k c hz => ?_⟩
    rw [(b1 cs hc).2 k c hz]
    exact bind_some_of_key (by rw [k₂, k₁]; exact hkey _ _ _ hz) c
  · intro k hk
    rw [b2 k hk, a3, (loadMeta_units h₁ k).2]

/-- **C81.** A request about existing variables is accepted exactly if there are new names when renaming is asked for, as many units as
variables, which all exist, and as many target units as variables, which exist and can be converted from the units given or else those
of the file. -/
theorem C81_accepted (valid : String → Bool) (equiv : Option String → String → Bool) (given : Bool) (req : Req) (found : List String)
    (m : Meta) (vs : List String) (hv : About req found m vs) (hf : ∀ v ∈ found, v ∈ m.map Prod.fst) (hn : vs.Nodup) :
    (∃ m', request valid equiv given req found m = .ok m') ↔
      (given = false → req.rename ≠ some []) ∧
      (∀ us, req.units = some us → us.length = vs.length ∧ ∀ u ∈ us, valid u = true) ∧
      (∀ cs, req.conform = some cs → cs.length = vs.length ∧ (∀ c ∈ cs, valid c = true) ∧
        ∀ k c u, (k, c) ∈ vs.zip cs → UnitsFrom req vs m k u → equiv u c = true) := by
  have hv₀ := (variablesOf_iff req found m hf vs).2 hv
  have hkey : ∀ (k : String) (us : List String) (n : String), (k, n) ∈ vs.zip us → k ∈ m.map Prod.fst := fun k us n hz => hv.2.1 k (List.of_mem_zip hz).1
  constructor
  · rintro ⟨m', h⟩
    obtain ⟨m₁, m₂, h₁, h₂, h₃⟩ := request_ok h
    have k₁ := loadMeta_keys h₁
    have k₂ := setUnits_keys h₂
    have hv₁ : variablesOf req found m₁ = .ok vs := by rw [variablesOf_keys _ _ _ _ k₁]; exact hv₀
    have hv₂ : variablesOf req found m₂ = .ok vs := by rw [variablesOf_keys _ _ _ _ k₂]; exact hv₁
    obtain ⟨a1, a2, a3⟩ := setUnits_units hv₁ hn h₂
    refine ⟨?_, ?_, ?_⟩
    · rintro rfl hr
      unfold loadMeta at h₁
      rw [hr, hv₀] at h₁
      simp at h₁
    · intro us hu
      rcases setUnits_ok h₂ with ⟨h0, -⟩ | ⟨us', vs', hu', hv', hl, ha, -⟩
      · rw [h0] at hu; cases hu
      · rw [hu] at hu'; cases hu'
        rw [hv₁] at hv'; cases hv'
        exact ⟨hl, List.all_eq_true.1 ha⟩
    · intro cs hc
      rcases setConform_ok h₃ with ⟨h0, -⟩ | ⟨cs', vs', hc', hv', hl, ha, he, -⟩
      · rw [h0] at hc; cases hc
      · rw [hc] at hc'; cases hc'
        rw [hv₂] at hv'; cases hv'
        refine ⟨hl, List.all_eq_true.1 ha, ?_⟩
        intro k c u hz hu
        have := (equivalent_iff equiv _ vs cs).1 he k c hz
        rcases hu with ⟨h0, rfl⟩ | ⟨us, u', hu, hz', rfl⟩
        · rw [a2 k (Or.inl h0), (loadMeta_units h₁ k).1] at this
          exact this
        · rw [(a1 us hu).2 k u' hz', bind_some_of_key (by rw [k₁]; exact hkey _ _ _ hz')] at this
          exact this
  · rintro ⟨c1, c2, c3⟩
    have hL : ∃ m₁, loadMeta given req found m = .ok m₁ := by
      unfold loadMeta
      cases given
      · simp only [Bool.false_eq_true, if_false, hv₀]
        cases hr : req.rename with
        | none => exact ⟨_, rfl⟩
        | some ns =>
          have : ns ≠ [] := by rintro rfl; exact c1 rfl hr
          simp only [this, if_false]
          exact ⟨_, rfl⟩
      · exact ⟨_, rfl⟩
    obtain ⟨m₁, h₁⟩ := hL
    have k₁ := loadMeta_keys h₁
    have hv₁ : variablesOf req found m₁ = .ok vs := by rw [variablesOf_keys _ _ _ _ k₁]; exact hv₀
    have hU : ∃ m₂, setUnits valid req found m₁ = .ok m₂ := by
      unfold setUnits
      cases hu : req.units with
      | none => exact ⟨_, rfl⟩
      | some us =>
        obtain ⟨hl, ha⟩ := c2 us hu
        simp only [hv₁, hl, List.all_eq_true.2 ha, ne_eq, not_true, if_false, if_true]
        exact ⟨_, rfl⟩
    obtain ⟨m₂, h₂⟩ := hU
    have k₂ := setUnits_keys h₂
    have hv₂ : variablesOf req found m₂ = .ok vs := by rw [variablesOf_keys _ _ _ _ k₂]; exact hv₁
    obtain ⟨a1, a2, a3⟩ := setUnits_units hv₁ hn h₂
    have hC : ∃ m₃, setConform valid equiv req found m₂ = .ok m₃ := by
      unfold setConform
      cases hc : req.conform with
      | none => exact ⟨_, rfl⟩
      | some cs =>
        obtain ⟨hl, ha, he⟩ := c3 cs hc
        have : equivalent equiv (unitsOf vs m₂) cs = true := by
          rw [unitsOf, equivalent_iff]
          intro k c hz
          apply he k c _ hz
          cases hu : req.units with
          | none =>
            refine Or.inl ⟨hu, ?_⟩
            rw [a2 k (Or.inl hu), (loadMeta_units h₁ k).1]
          | some us =>
            have hkv := (List.of_mem_zip hz).1
            rw [← zip_keys (a1 us hu).1] at hkv
            obtain ⟨⟨k', u'⟩, hz', hk'⟩ := List.mem_map.1 hkv
            simp only at hk'
            subst hk'
            refine Or.inr ⟨us, u', hu, hz', ?_⟩
            rw [(a1 us hu).2 k' u' hz', bind_some_of_key (by rw [k₁]; exact hkey _ _ _ hz')]
        simp only [hv₂, hl, List.all_eq_true.2 ha, this, ne_eq, not_true, if_false, if_true]
        exact ⟨_, rfl⟩
    obtain ⟨m₃, h₃⟩ := hC
    exact ⟨m₃, by unfold request; simp only [h₁, h₂, h₃]⟩

/-- **C81.** Names, units or target units for variables that do not exist are refused. -/
theorem C81_unknown (valid : String → Bool) (equiv : Option String → String → Bool) (given : Bool) (req : Req) (found : List String)
    (m : Meta) (hf : ∀ v ∈ found, v ∈ m.map Prod.fst) (hv : ∀ vs, ¬ About req found m vs)
    (h : (given = false ∧ req.rename ≠ none) ∨ req.units ≠ none ∨ req.conform ≠ none) :
    ∀ m', request valid equiv given req found m ≠ .ok m' := by
  intro m' hm
  obtain ⟨m₁, m₂, h₁, h₂, h₃⟩ := request_ok hm
  have k₁ := loadMeta_keys h₁
  have k₂ := setUnits_keys h₂
  have hno : ∀ vs, variablesOf req found m ≠ .ok vs := fun vs h => hv vs ((variablesOf_iff req found m hf vs).1 h)
  rcases h with ⟨rfl, hr⟩ | hu | hc
  · unfold loadMeta at h₁
    cases hr' : req.rename with
    | none => exact hr hr'
    | some ns =>
      rw [hr'] at h₁
      cases hv' : variablesOf req found m with
      | error e => rw [hv'] at h₁; simp at h₁
      | ok vs => exact hno vs hv'
  · rcases setUnits_ok h₂ with ⟨h0, -⟩ | ⟨us, vs, -, hv', -⟩
    · exact hu h0
    · rw [variablesOf_keys _ _ _ _ k₁] at hv'; exact hno vs hv'
  · rcases setConform_ok h₃ with ⟨h0, -⟩ | ⟨us, vs, -, hv', -⟩
    · exact hc h0
    · rw [variablesOf_keys _ _ _ _ k₂, variablesOf_keys _ _ _ _ k₁] at hv'; exact hno vs hv'

/-- **C81.** The name of a field is the one given, else the new name of its only variable, else the usual one. -/
theorem C81_field_name (req : Req) (found : List String) (m : Meta) (vs : List String) (hv : About req found m vs)
    (hf : ∀ v ∈ found, v ∈ m.map Prod.fst) :
    (∀ n, req.fieldName = some n → fieldName req found m = .ok n) ∧
    (req.fieldName = none → ∀ n, req.rename = some [n] ∨ (req.rename = none ∧ vs = [n]) → fieldName req found m = .ok n) ∧
    (req.fieldName = none → ∀ a b l, req.rename = some (a :: b :: l) ∨ (req.rename = none ∧ vs = a :: b :: l) →
      fieldName req found m = .ok "ocgis_field") := by
  have hv₀ := (variablesOf_iff req found m hf vs).2 hv
  refine ⟨?_, ?_, ?_⟩
  · intro n h; simp [fieldName, h]
  · rintro h n (hr | ⟨hr, rfl⟩)
    · simp [fieldName, h, newNames, hr]
    · simp [fieldName, h, newNames, hr, hv₀]
  · rintro h a b l (hr | ⟨hr, rfl⟩)
    · simp [fieldName, h, newNames, hr]
    · simp [fieldName, h, newNames, hr, hv₀]

/-- **C81.** The driver of one address: netCDF if `.nc` is in it or it begins with `http`, else that of the only ending in it; without any
or with both of the others there is no driver. -/
theorem C81_driver (u : List Char) :
    (Has ".nc".toList u ∨ "http".toList <+: u → autodiscover [u] = .ok .netcdfCf) ∧
    (¬ Has ".nc".toList u → ¬ "http".toList <+: u →
      (Has ".csv".toList u → ¬ Has ".shp".toList u → autodiscover [u] = .ok .csv) ∧
      (¬ Has ".csv".toList u → Has ".shp".toList u → autodiscover [u] = .ok .vector) ∧
      ((Has ".csv".toList u ↔ Has ".shp".toList u) → autodiscover [u] = .error .requestValidation)) := by
  simp only [← isInside_iff, ← List.isPrefixOf_iff_prefix]
  constructor
  · intro h
    have hh : ∃ n, Driver.hits u .netcdf = n + 1 := by
      simp only [Driver.hits]
      rcases h with h | h
      · rw [h]; exact ⟨if "http".toList.isPrefixOf u = true then 1 else 0, by simp [Nat.add_comm]⟩
      · rw [h]; exact ⟨if isInside ".nc".toList u = true then 1 else 0, by simp⟩
    obtain ⟨n, hn⟩ := hh
    have hp := possible_single u
    rw [hn] at hp
    have hmem : Driver.netcdfCf ∈ possible [u] := by
      rw [hp]; simp
    have hlen : 2 ≤ (possible [u]).length := by
      rw [hp]; simp only [List.length_append, List.length_replicate]; omega
    unfold autodiscover
    split
    · rename_i e; rw [e] at hlen; simp at hlen
    · rename_i e; rw [e] at hlen; simp at hlen
    · rw [if_pos hmem]
  · intro h1 h2
    have hn : Driver.hits u .netcdf = 0 := by
      simp only [Driver.hits]
      rw [if_neg h1, if_neg h2]
    have hp := possible_single u
    rw [hn] at hp
    refine ⟨?_, ?_, ?_⟩
    · intro a b
      unfold autodiscover
      rw [hp, if_pos a, if_neg b]
      rfl
    · intro a b
      unfold autodiscover
      rw [hp, if_neg a, if_pos b]
      rfl
    · intro hi
      unfold autodiscover
      rw [hp]
      cases a : isInside ".csv".toList u <;> cases b : isInside ".shp".toList u <;> simp_all

/-- **C81.** With several addresses, one of which is for netCDF, the driver is that for netCDF. -/
theorem C81_driver_many (uris : List (List Char)) (u : List Char) (hu : u ∈ uris) (h : Has ".nc".toList u ∨ "http".toList <+: u) :
    autodiscover uris = .ok .netcdfCf := by
  have h1 := (C81_driver u).1 h
  have hcf : ∀ l : List (List Char), u ∈ l → Driver.netcdfCf ∈ possible l ∧ 2 ≤ (possible l).length := by
    intro l
    induction l with
    | nil => simp
    | cons a l ih =>
      intro hm
      have hp : possible (a :: l) = possible [a] ++ possible l := by simp [possible]
      rw [hp, List.length_append]
      rcases List.mem_cons.1 hm with rfl | hm
      · have : Driver.netcdfCf ∈ possible [u] ∧ 2 ≤ (possible [u]).length := by
          simp only [← isInside_iff, ← List.isPrefixOf_iff_prefix] at h
          have hh : ∃ n, Driver.hits u .netcdf = n + 1 := by
            simp only [Driver.hits]
            rcases h with h | h
            · rw [h]; exact ⟨if "http".toList.isPrefixOf u = true then 1 else 0, by simp [Nat.add_comm]⟩
            · rw [h]; exact ⟨if isInside ".nc".toList u = true then 1 else 0, by simp⟩
          obtain ⟨n, hn⟩ := hh
          rw [possible_single u, hn]
          refine ⟨by simp, ?_⟩
          simp only [List.length_append, List.length_replicate]; omega
        exact ⟨List.mem_append_left _ this.1, by omega⟩
      · obtain ⟨a1, a2⟩ := ih hm
        exact ⟨List.mem_append_right _ a1, by omega⟩
  obtain ⟨hmem, hlen⟩ := hcf uris hu
  unfold autodiscover
  split
  · rename_i e; rw [e] at hlen; simp at hlen
  · rename_i e; rw [e] at hlen; simp at hlen
  · rw [if_pos hmem]

/-- **C81, in part.** A driver is chosen by its key.  What is missing: keys that do not exist are not refused; see
`C81_unknown_driver_counterexample`. -/
theorem C81_driver_key_partial (d : Driver) : getDriver d.key = d := by
  cases d <;> decide +kernel

/-- **C81, in part.** A file that exists or is remote is used as it is; else it is looked for in the directories, and if one of them has it
the first path found there is used; if there is none it is refused.  What is missing: with several directories that have it, the first
should be used; see `C81_directory_counterexample`. -/
theorem C81_uri_partial (known : Bool) (dirs : List String) (locate : String → List String) (u : String) :
    (known = true → getUri known dirs locate u = .ok u) ∧
    (known = false → (∀ d ∈ dirs, locate d = []) → getUri known dirs locate u = .error .valueError) ∧
    (known = false → ∀ pre d post p l, dirs = pre ++ d :: post → locate d = p :: l → (∀ d' ∈ post, locate d' = []) →
      getUri known dirs locate u = .ok p) := by
  refine ⟨?_, ?_, ?_⟩
  · rintro rfl; rfl
  · rintro rfl h
    simp [getUri, locateIn_none locate dirs h]
  · rintro rfl pre d post p l rfl hd hp
    simp [getUri, locateIn_append, locateIn, hd, locateIn_none locate post hp]

/-- A file with three variables. -/
def threeVars : Meta := [("tas", ⟨"tas", some "K", none⟩), ("pr", ⟨"pr", some "mm", none⟩), ("lon", ⟨"lon", none, none⟩)]

/-- The hypotheses hold for renaming two variables with units, even if their names are exchanged. -/
example : FileNames threeVars ∧ About ⟨some ["pr", "tas"], some ["tas", "pr"], some ["cm", "C"], some ["mm", "K"], none⟩ [] threeVars ["pr", "tas"] ∧
    UsableNames ["pr", "tas"] ["tas", "pr"] threeVars ∧
    ∃ m', request (fun _ => true) (fun _ _ => true) false ⟨some ["pr", "tas"], some ["tas", "pr"], some ["cm", "C"], some ["mm", "K"], none⟩ []
      threeVars = .ok m' ∧ m' = [("tas", ⟨"pr", some "C", some "K"⟩), ("pr", ⟨"tas", some "cm", some "mm"⟩), ("lon", ⟨"lon", none, none⟩)] ∧
      createField ⟨some ["pr", "tas"], some ["tas", "pr"], some ["cm", "C"], some ["mm", "K"], none⟩ [] m' =
        .ok ([("pr", "tas"), ("tas", "pr"), ("lon", "lon")], ["tas", "pr"]) := by
  refine ⟨⟨by decide, ?_⟩, ⟨by decide, by decide, Or.inl rfl⟩, ⟨by decide, by decide, rfl, by decide⟩, _, rfl, by decide, by decide⟩
  intro k x h
  simp only [threeVars, List.mem_cons, Prod.mk.injEq, List.not_mem_nil, or_false] at h
  rcases h with ⟨rfl, rfl⟩ | ⟨rfl, rfl⟩ | ⟨rfl, rfl⟩ <;> rfl

example : autodiscover ["data/a.csv".toList] = .ok .csv ∧ autodiscover ["b.shp".toList] = .ok .vector ∧
    autodiscover ["x.nc".toList, "y.nc".toList] = .ok .netcdfCf ∧ autodiscover ["x.txt".toList] = .error .requestValidation := by
  decide +kernel

/-- **C81, counterexample.** Fewer new names than variables are accepted: the variables without a new name keep theirs, but are data
variables no more. -/
theorem C81_short_rename_counterexample :
    ∃ (req : Req) (m m' : Meta) (f : List (String × String)), FileNames m ∧ About req [] m ["tas", "pr"] ∧
      request (fun _ => true) (fun _ _ => true) false req [] m = .ok m' ∧ createField req [] m' = .ok (f, ["t"]) ∧
      f.lookup "pr" = some "pr" := by
  refine ⟨⟨some ["tas", "pr"], some ["t"], none, none, none⟩, threeVars, _, _, ⟨by decide, ?_⟩, ⟨by decide, by decide, Or.inl rfl⟩, rfl,
    rfl, by decide⟩
  intro k x h
  simp only [threeVars, List.mem_cons, Prod.mk.injEq, List.not_mem_nil, or_false] at h
  rcases h with ⟨rfl, rfl⟩ | ⟨rfl, rfl⟩ | ⟨rfl, rfl⟩ <;> rfl

/-- **C81, counterexample.** With metadata given by the user the variables are not renamed, but the data variables are the new names: no
variable has that name. -/
theorem C81_given_metadata_counterexample :
    ∃ (req : Req) (m m' : Meta) (f : List (String × String)), About req [] m ["tas"] ∧
      request (fun _ => true) (fun _ _ => true) true req [] m = .ok m' ∧ createField req [] m' = .ok (f, ["t"]) ∧ f.lookup "t" = none :=
  ⟨⟨some ["tas"], some ["t"], none, none, none⟩, threeVars, _, _, ⟨by decide, by decide, Or.inl rfl⟩, rfl, rfl, by decide⟩

/-- **C81, counterexample.** A new name that another variable has: the variable asked for is lost, and the other takes its place. -/
theorem C81_used_name_counterexample :
    ∃ (req : Req) (m m' : Meta) (f : List (String × String)), About req [] m ["tas"] ∧
      request (fun _ => true) (fun _ _ => true) false req [] m = .ok m' ∧ createField req [] m' = .ok (f, ["pr"]) ∧
      f.lookup "pr" = some "pr" ∧ ∀ n, f.lookup n ≠ some "tas" := by
  refine ⟨⟨some ["tas"], some ["pr"], none, none, none⟩, threeVars, _, _, ⟨by decide, by decide, Or.inl rfl⟩, rfl, rfl, by decide, ?_⟩
  intro n
  change List.lookup n [("pr", "pr"), ("lon", "lon")] ≠ some "tas"
  by_cases h1 : n = "pr"
  · subst h1; decide
  · by_cases h2 : n = "lon"
    · subst h2; decide
    · have e1 : (n == "pr") = false := by simpa using h1
      have e2 : (n == "lon") = false := by simpa using h2
      simp [List.lookup_cons, e1, e2]

/-- **C81, counterexample.** Two shapefiles, or two files with comma-separated values, have no driver, although each has one. -/
theorem C81_two_files_counterexample :
    ∃ a b : List Char, autodiscover [a] = .ok .vector ∧ autodiscover [b] = .ok .vector ∧ autodiscover [a, b] = .error .requestValidation :=
  ⟨"a.shp".toList, "b.shp".toList, by decide +kernel, by decide +kernel, by decide +kernel⟩

/-- **C81, counterexample.** A file whose name ends in `.csv` is taken for netCDF if `.nc` is anywhere in its path, or if it is remote. -/
theorem C81_path_counterexample :
    autodiscover ["/data.nc/stations.csv".toList] = .ok .netcdfCf ∧ autodiscover ["http://server/stations.csv".toList] = .ok .netcdfCf := by
  decide +kernel

/-- **C81, counterexample.** A driver that does not exist is not refused. -/
theorem C81_unknown_driver_counterexample : ∃ key, (∀ d : Driver, d.key ≠ key) ∧ getDriver key = .netcdfCf :=
  ⟨"netcdf-ugird", fun d => by cases d <;> decide, by decide +kernel⟩

/-- **C81, counterexample.** A file that is in two directories is taken from the last. -/
theorem C81_directory_counterexample :
    ∃ (locate : String → List String), getUri false ["a", "b"] locate "f.nc" = .ok "b/f.nc" ∧ locate "a" = ["a/f.nc"] :=
  ⟨fun d => if d = "a" then ["a/f.nc"] else ["b/f.nc"], by decide, by decide⟩

end Ocgis.Props
