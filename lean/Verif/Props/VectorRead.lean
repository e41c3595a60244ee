import Verif.Proofs.VectorRead

/-! # C92: fields of vector files show the features they refer to -/

namespace Ocgis.Props
open Ocgis Ocgis.Records Ocgis.Cabinet Ocgis.Spec Ocgis.VectorRead

/-- After any history of orderly slices and reading, in any order, every variable shows the features of the file at the positions that
are left: attributes by their names, geometries; and exactly the nulls of integer columns are masked.  Missing for the full property:
values and masks that are set, values that are removed, slices with repeated or descending positions, renamed variables, and nulls of
other columns (see the counterexamples). -/
theorem C92_read_partial {G : Type} (src : Source G) (hg : GoodFile src) (f : VField G) (ho : Opened src f) (acts : List (Act G))
    (hr : Reading (f.vars.map FVar.name) (sources f.dim).length acts) (v : FVar G) (hv : v ∈ f.vars) :
    ∃ f', run src f acts = .ok f' ∧
      (getValue src v.name f').map Prod.snd = .ok ((featuresAt src (positionsAfter (sources f.dim) acts)).map (shown v)) ∧
      ∃ m, (getMask src v.name f').map Prod.snd = .ok m ∧ Masks m ((featuresAt src (positionsAfter (sources f.dim) acts)).map (missing v)) := by
  obtain ⟨f', h1, h2⟩ := inStep_run src hg f.vars acts _ f (opened_inStep src f ho) hr
  obtain ⟨f1, h3, -⟩ := inStep_getValue src hg f.vars _ f' v hv h2
  obtain ⟨f2, m, h4, h5, -⟩ := inStep_getMask src hg f.vars _ f' v hv h2
  exact ⟨f', h1, by rw [h3]; rfl, m, by rw [h4]; rfl, h5⟩

/-- The file and the field of the examples meet the conditions. -/
theorem towns_good : GoodFile threeTowns ∧ Opened threeTowns towns := by
  refine ⟨⟨⟨by decide, ?_, ?_, ?_⟩, ?_, ?_, rfl⟩, ⟨⟨?_, ?_, ?_, ?_, ?_⟩, ?_, ?_, ?_⟩⟩
  · intro f hf
    simp only [threeTowns, List.mem_cons, List.not_mem_nil, or_false] at hf
    rcases hf with rfl | rfl | rfl <;> rfl
  · intro f hf v hv
    simp only [threeTowns, List.mem_cons, List.not_mem_nil, or_false] at hf
    rcases hf with rfl | rfl | rfl <;> simp [idName] at hv
  · intro u hu; cases hu
  · intro f hf k x hx t ht
    simp only [threeTowns, List.mem_cons, List.not_mem_nil, or_false, Prod.mk.injEq] at hf ht
    rcases hf with rfl | rfl | rfl <;> simp only [List.mem_cons, List.not_mem_nil, or_false, Prod.mk.injEq] at hx <;>
      rcases ht with ⟨rfl, rfl⟩ | ⟨rfl, rfl⟩ | ⟨rfl, rfl⟩ <;> rcases hx with ⟨h, rfl⟩ | ⟨h, rfl⟩ | ⟨h, rfl⟩ <;>
      first | exact absurd h (by decide) | trivial
  · intro i f hf
    match i, hf with
    | 0, hf => simp [threeTowns] at hf; rw [← hf]; rfl
    | 1, hf => simp [threeTowns] at hf; rw [← hf]; rfl
    | 2, hf => simp [threeTowns] at hf; rw [← hf]; rfl
    | i + 3, hf => simp [threeTowns] at hf
  · decide
  · decide
  · decide
  · decide
  · decide
  · decide
  · intro v hv
    simp only [towns, List.mem_cons, List.not_mem_nil, or_false] at hv
    rcases hv with rfl | rfl | rfl | rfl
    · exact .inr ⟨.int, .int, rfl, by decide, trivial⟩
    · exact .inr ⟨.float, .float, rfl, by decide, trivial⟩
    · exact .inr ⟨.str 0, .str 10, rfl, by decide, trivial⟩
    · exact .inl ⟨rfl, rfl⟩
  · intro v hv
    simp only [towns, List.mem_cons, List.not_mem_nil, or_false] at hv
    rcases hv with rfl | rfl | rfl | rfl <;> exact ⟨rfl, rfl, rfl⟩

/-- A history with a slice before and after reading meets the conditions. -/
example : Reading (G := Nat) (towns.vars.map FVar.name) (sources towns.dim).length
    [.slice (.ints [0, 2]), .get "NAME", .slice (.bools [false, true]), .getMask "POP"] := by
  refine ⟨?_, by decide, ?_, by decide, trivial⟩
  · exact ⟨by decide, by decide, by decide⟩
  · exact ⟨by decide, by decide⟩

/-- What the theorem says of the example. -/
example : positionsAfter (G := Nat) (sources towns.dim) [.slice (.ints [0, 2]), .get "NAME", .slice (.bools [false, true]), .getMask "POP"] = [2] ∧
    (featuresAt threeTowns [2]).map (shown { name := "NAME", kind := .data (.str 0) }) = [.str "c"] ∧
    (featuresAt threeTowns [0, 1, 2]).map (missing { name := "POP", kind := .data .int }) = [false, true, false] := by decide +kernel

/-- When every variable has its value, setting and reading values and masks behaves as for independent variables: what is read is
what was set last, or what was there.  Missing for the full property: variables that are not read yet (see the counterexamples). -/
theorem C92_set_partial {G : Type} (src : Source G) (f : VField G) (hn : (f.vars.map FVar.name).Nodup) (hs : ∀ v ∈ f.vars, v.value.isSome)
    (acts : List (Act G)) (ha : Setting (f.vars.map FVar.name) acts) (v : FVar G) (hv : v ∈ f.vars) (a : List (Cell G))
    (hva : v.value = some a) :
    ∃ f', run src f acts = .ok f' ∧ (getValue src v.name f').map Prod.snd = .ok (lastSet v.name a acts) ∧
      (getMask src v.name f').map Prod.snd = .ok (lastMask v.name v.mask acts) := by
  obtain ⟨f', h1, -, h3, h4⟩ := settled_run src acts f hn hs ha
  obtain ⟨w, e1, e2, e3⟩ := h4 v.name v a (find_unique f hn v hv) hva
  refine ⟨f', h1, ?_, ?_⟩
  · unfold getValue; rw [e1]; simp only [e2]; rfl
  · unfold getMask; rw [e1]; simp only [e2, e3, Option.isSome_some, Bool.or_true, if_true]; rfl

/-- A field that has been read, and a history of setting. -/
example : ∃ f', run threeTowns towns [.get "POP"] = .ok f' ∧ (f'.vars.map FVar.name).Nodup ∧ (∀ v ∈ f'.vars, v.value.isSome) ∧
    Setting (G := Nat) (f'.vars.map FVar.name) [.set "POP" [.int 1, .int 2, .int 3], .get "NAME", .setMask "NAME" [true, false, false]] := by
  refine ⟨_, rfl, by decide, by decide +kernel, ?_⟩
  exact ⟨by decide, by decide, by decide, trivial⟩

/-- A value that is set before anything is read is replaced by that of the file when another variable is read. -/
theorem C92_set_counterexample :
    atEnd threeTowns towns [.set "POP" [.int 1, .int 2, .int 3]] "POP" = some ([.int 1, .int 2, .int 3], none) ∧
    atEnd threeTowns towns [.set "POP" [.int 1, .int 2, .int 3], .get "NAME"] "POP" =
      some ([.int 5, .int 0, .int 8], some [false, true, false]) := by decide +kernel

/-- A mask that is set before anything is read is replaced when any column of the file has a null in an integer column, and kept when
none has. -/
theorem C92_mask_counterexample :
    atEnd threeTowns towns [.setMask "NAME" [true, true, true]] "NAME" =
      some ([.str "a", .none, .str "c"], some [false, false, false]) ∧
    atEnd threeTowns towns [.slice (.ints [0, 2]), .setMask "NAME" [true, true]] "NAME" =
      some ([.str "a", .str "c"], some [true, true]) := by decide +kernel

/-- Removing the value of one variable and reading it again replaces what was set in another. -/
theorem C92_remove_counterexample :
    atEnd threeTowns towns [.get "POP", .set "POP" [.int 1, .int 2, .int 3], .get "NAME"] "POP" =
      some ([.int 1, .int 2, .int 3], some [false, true, false]) ∧
    atEnd threeTowns towns [.get "POP", .set "POP" [.int 1, .int 2, .int 3], .remove "NAME", .get "NAME"] "POP" =
      some ([.int 5, .int 0, .int 8], some [false, true, false]) := by decide +kernel

/-- Removing the value of the variable that was read first does not read it again: it is made of fill values. -/
theorem C92_removed_counterexample :
    atEnd threeTowns towns [.get "POP", .remove "POP"] "POP" = some ([.fill, .fill, .fill], some [false, true, false]) := by decide +kernel

/-- Nulls of text and floating point columns are not masked. -/
theorem C92_null_counterexample :
    atEnd threeTowns towns [] "NAME" = some ([.str "a", .none, .str "c"], some [false, false, false]) ∧
    atEnd threeTowns towns [] "HEIGHT" = some ([.float (1 / 2), .float 7, .nan], some [false, false, false]) ∧
    atEnd threeTowns towns [] "POP" = some ([.int 5, .int 0, .int 8], some [false, true, false]) := by decide +kernel

/-- Slices with repeated positions: a variable that is read before has the features asked for, a variable that is read afterwards has
zeros instead. -/
theorem C92_repeated_counterexample :
    atEnd threeTowns towns [.get "NAME", .slice (.ints [0, 2, 2]), .slice (.slice ⟨some 1, some 3⟩)] "NAME" =
      some ([.str "c", .str "c"], some [false, false]) ∧
    atEnd threeTowns towns [.slice (.ints [0, 2, 2]), .slice (.slice ⟨some 1, some 3⟩)] "NAME" = some ([.str "c", .int 0], none) := by
  decide +kernel

/-- Positions in descending order give the features in between, in the order of the file. -/
theorem C92_descending_counterexample :
    atEnd threeTowns towns [.slice (.ints [2, 0])] "ocgis_geom" = some ([.geom 100, .geom 101, .geom 102], some [false, false, false]) := by
  decide +kernel

/-- A variable of an attribute with another name makes every variable of the field unreadable; a geometry variable with another name
is full of zeros. -/
theorem C92_renamed_counterexample :
    atEnd threeTowns { towns with vars := [{ name := "CITY", kind := .data (.str 0) }, { name := "POP", kind := .data .int }] } [] "POP" = none ∧
    atEnd threeTowns { towns with vars := [{ name := "geom", kind := .geom }] } [] "geom" = some ([.int 0, .int 0, .int 0], none) := by decide +kernel

/-- A variable without a field can never be read. -/
theorem C92_orphan {G : Type} (src : Source G) (d : Dim) (v : FVar G) (x : List (Cell G)) : orphanValue src d v ≠ .ok x := by
  unfold orphanValue
  cases readRows src d with
  | error e => intro h; cases h
  | ok rows =>
    simp only
    cases column d.len.toNat rows v with
    | error e => intro h; cases h
    | ok c => intro h; cases h

/-- The same variable can be read inside a field. -/
example : (getValue threeTowns "NAME" towns).toOption.isSome ∧
    orphanValue threeTowns towns.dim { name := "NAME", kind := .data (.str 0) } = .error .attributeError := by decide +kernel

theorem dtypeOf_kind (ftype : List Char) (t : Ty) : dtypeOf ftype = .ok t ↔ kindOfType ftype = some t := by
  unfold dtypeOf kindOfType
  simp only [List.isPrefixOf_iff_prefix]
  split
  · simp
  · split
    · simp
    · split
      · simp
      · simp

/-- A file is opened exactly when the name of every column's type begins with int, str or float, and then has one variable for every
column, in order, of that kind. -/
theorem C92_types (schema : List (String × List Char)) (vars : List (String × Ty)) :
    columnTypes schema = .ok vars ↔
      vars.map Prod.fst = schema.map Prod.fst ∧ vars.map (fun v => some v.2) = schema.map fun p => kindOfType p.2 := by
  unfold columnTypes
  induction schema generalizing vars with
  | nil =>
    constructor
    · intro h; injection h with h; subst h; exact ⟨rfl, rfl⟩
    · intro h
      have : vars = [] := by simpa using h.1
      rw [this]; rfl
  | cons p schema ih =>
    rw [resMapM_cons]
    cases hd : dtypeOf p.2 with
    | error e =>
      have hc : columnType p = .error e := by unfold columnType; rw [hd]
      rw [hc]
      simp only
      constructor
      · intro h; cases h
      · intro h
        cases vars with
        | nil => simp at h
        | cons v vars =>
          have h2 := h.2
          simp only [List.map_cons, List.cons.injEq] at h2
          have := (dtypeOf_kind p.2 v.2).2 h2.1.symm
          rw [hd] at this
          cases this
    | ok t =>
      have hk := (dtypeOf_kind p.2 t).1 hd
      have hc : columnType p = .ok (p.1, t) := by unfold columnType; rw [hd]
      rw [hc]
      simp only
      cases hm : schema.mapM columnType with
      | error e =>
        simp only
        constructor
        · intro h; cases h
        · intro h
          cases vars with
          | nil => simp at h
          | cons v vars =>
            simp only [List.map_cons, List.cons.injEq] at h
            have := (ih vars).2 ⟨h.1.2, h.2.2⟩
            rw [hm] at this
            cases this
      | ok ws =>
        simp only
        have hws := (ih ws).1 hm
        constructor
        · intro h
          injection h with h
          subst h
          simp [hws.1, hws.2, hk]
        · intro h
          cases vars with
          | nil => simp at h
          | cons v vars =>
            simp only [List.map_cons, List.cons.injEq] at h
            have hv := (ih vars).2 ⟨h.1.2, h.2.2⟩
            rw [hm] at hv
            injection hv with hv
            rw [hv]
            congr 2
            have h3 := h.2.1
            rw [hk] at h3
            injection h3 with h3
            exact Prod.ext h.1.1.symm h3.symm

/-- Widths do not matter; a column of dates makes the whole file unusable. -/
example : columnTypes [("POP", "int32:10".toList), ("NAME", "str:80".toList), ("H", "float:24.15".toList)] =
    .ok [("POP", .int), ("NAME", .str 0), ("H", .float)] := by decide +kernel

theorem C92_date_counterexample :
    columnTypes [("POP", "int".toList), ("WHEN", "date".toList)] = .error .notImplemented ∧
    columnTypes [("FLAG", "bool".toList)] = .error .notImplemented := by decide +kernel

/-- A file that is written has columns that read back with the kinds of the values of the first record, if none of these is null. -/
theorem C92_schema_partial (record : List (String × Val)) (h : ∀ p ∈ record, p.2 ≠ .null) :
    ∃ vars, columnTypes (fionaSchema record) = .ok vars ∧ vars.map Prod.fst = record.map Prod.fst ∧
      vars.map (fun v => some v.2) = record.map fun p => kindOfVal p.2 := by
  have hk : ∀ v : Val, v ≠ .null → kindOfType (fionaTypeText v) = kindOfVal v := by
    intro v hv
    cases v with
    | null => exact absurd rfl hv
    | int i => show kindOfType "int".toList = some .int; decide +kernel
    | float q => show kindOfType "float".toList = some .float; decide +kernel
    | str s => show kindOfType "str:50".toList = some (.str 0); decide +kernel
  refine ⟨record.map fun p => (p.1, (kindOfVal p.2).getD .int), (C92_types _ _).2 ?_, ?_, ?_⟩
  · unfold fionaSchema
    refine ⟨by simp [Function.comp_def], ?_⟩
    simp only [List.map_map]
    apply List.map_congr_left
    intro p hp
    simp only [Function.comp_apply]
    rw [hk p.2 (h p hp)]
    have hne := h p hp
    cases hv : p.2 with
    | null => exact absurd hv hne
    | int i => rfl
    | float q => rfl
    | str s => rfl
  · simp [Function.comp_def]
  · simp only [List.map_map]
    apply List.map_congr_left
    intro p hp
    have hne := h p hp
    cases hv : p.2 with
    | null => exact absurd hv hne
    | int i => simp [Function.comp_apply, hv, kindOfVal]
    | float q => simp [Function.comp_apply, hv, kindOfVal]
    | str s => simp [Function.comp_apply, hv, kindOfVal]

example : columnTypes (fionaSchema [("A", .int 3), ("B", .float (1 / 2)), ("C", .str "x")]) =
    .ok [("A", .int), ("B", .float), ("C", .str 0)] := by decide +kernel

/-- A null in the first record makes an integer column, whatever the other records hold. -/
theorem C92_schema_counterexample :
    columnTypes (fionaSchema [("NAME", .null)]) = .ok [("NAME", .int)] ∧
    columnTypes (fionaSchema [("NAME", .str "x")]) = .ok [("NAME", .str 0)] := by decide +kernel

end Ocgis.Props
