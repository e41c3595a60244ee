import Verif.Proofs.Tabular

/-!
# C70: writing records
-/

namespace Ocgis.Props
open Ocgis Ocgis.Tabular Ocgis.Spec

/-! ## Any interleaving -/

/-- C70: however the steps of the ranks interleave, when all have finished the file holds the lines of all ranks in rank order
(those of the last rank for GeoJSON). -/
theorem C70_rank_order (j : Job) (hs : 0 < j.size) (f : Option File) (schedule : List Nat) (h : AllDone j (run j f schedule)) :
    (run j f schedule).file = expectedFile j f := by
  have howned := owned_program j hs
  obtain ⟨n, hn⟩ := inv_run j f (fenced_of_tidy _ (tidy_program j)) howned schedule
  have hskip := foldl_take_skip j (program j) f n ((program j).length - n) (fun i a h1 h2 h3 => by
    cases ho : owner a with
    | none => rfl
    | some p =>
      exfalso
      have := (hn.before i a p h3 ho).2 (by
        rw [h p (howned a (List.mem_of_getElem? h3) p ho)]
        exact (List.getElem?_eq_some_iff.1 h3).1)
      omega)
  rw [hn.file, ← writeModes_eq j hs f, ← foldl_program, ← hskip]
  rw [List.take_of_length_le (by omega)]

example : AllDone ⟨.csv, [.template, .fill], ["a"], fun r => [[toString r]], 2⟩
    (run ⟨.csv, [.template, .fill], ["a"], fun r => [[toString r]], 2⟩ none [1, 1, 1, 1, 1, 0, 0, 0, 0, 0, 1, 1, 0, 1, 1, 0]) := by
  intro r hr
  have : r = 0 ∨ r = 1 := by simp at hr; omega
  rcases this with rfl | rfl <;> decide

/-- C70: no schedule leads into a deadlock: as long as a rank has not finished, some rank can move. -/
theorem C70_no_deadlock (j : Job) (f : Option File) (schedule : List Nat) (h : ¬AllDone j (run j f schedule)) :
    ∃ r, r < j.size ∧ (step j (run j f schedule) r).pc r = (run j f schedule).pc r + 1 := by
  have hne : 0 < j.size := by
    rcases Nat.eq_zero_or_pos j.size with h0 | h0
    · exact absurd (fun r hr => by omega) h
    · exact h0
  obtain ⟨m, hm⟩ := inv_run j f (fenced_of_tidy _ (tidy_program j)) (owned_program j hne) schedule
  generalize run j f schedule = w at *
  -- a rank with the smallest program counter
  have hmin : ∀ n, 0 < n → ∃ r, r < n ∧ ∀ q, q < n → w.pc r ≤ w.pc q := by
    intro n
    induction n with
    | zero => intro h; omega
    | succ n ih =>
      intro _
      rcases Nat.eq_zero_or_pos n with h0 | h0
      · subst h0
        refine ⟨0, by omega, fun q hq => ?_⟩
        have : q = 0 := by omega
        subst this; exact Nat.le_refl _
      · obtain ⟨r, hr, hq⟩ := ih h0
        rcases Nat.le_total (w.pc r) (w.pc n) with hle | hle
        · refine ⟨r, by omega, fun q hqn => ?_⟩
          rcases Nat.lt_or_ge q n with hh | hh
          · exact hq q hh
          · have : q = n := by omega
            subst this; exact hle
        · refine ⟨n, by omega, fun q hqn => ?_⟩
          rcases Nat.lt_or_ge q n with hh | hh
          · have := hq q hh; omega
          · have : q = n := by omega
            subst this; exact Nat.le_refl _
  obtain ⟨r, hr, hq⟩ := hmin j.size hne
  refine ⟨r, hr, ?_⟩
  have hlt : w.pc r < (program j).length := by
    rcases Nat.lt_or_ge (w.pc r) (program j).length with hh | hh
    · exact hh
    · exfalso
      apply h
      intro q hqs
      have := hq q hqs; have := hm.bound q hqs; omega
  have hall : (List.range j.size).all (fun q => w.pc r ≤ w.pc q) = true := by
    rw [List.all_eq_true]; intro q hh; simpa using hq q (by simpa using hh)
  have hgo : ∀ a, mayGo j w r a = true := by
    intro a; cases a <;> simp only [mayGo]; exact hall
  unfold step
  rw [if_pos hr, List.getElem?_eq_getElem hlt]
  simp [hgo]

example : ¬AllDone ⟨.csv, [.template, .fill], ["a"], fun _ => [], 2⟩
    (run ⟨.csv, [.template, .fill], ["a"], fun _ => [], 2⟩ none [1, 1, 1, 1, 1]) :=
  fun h => by have := h 1 (by decide); revert this; decide

/-! ## Whole writes -/

/-- C70: written to CSV or a shapefile from any number of ranks, and read back, the records of all collections come in order
with all their values, if every collection has one field, all records have the same columns and every rank has a record.

Partial: see the counterexamples below for collections with other columns or several fields, for column names with equal first
ten characters and for GeoJSON; `C70_empty_rank_counterexample` for ranks without records. -/
theorem C70_records_partial (fmt : Format) (hg : fmt ≠ .geojson) (old : Option File) (names : Row)
    (hd : (names.map (storedName fmt)).Nodup) (colls : List (List (List Record))) (h0 : colls ≠ [])
    (h : ∀ c ∈ colls, c ≠ [] ∧ ∀ p ∈ c, p ≠ [] ∧ ∀ rec ∈ p, rec.map (·.1) = names) :
    ∃ f, write fmt (colls.map fun c => [c]) old = .ok (some f) ∧ read f = colls.flatten.flatten.map (stored fmt) := by
  have hread : ∀ cs : List (List (List Record)), (∀ c ∈ cs, c ≠ [] ∧ ∀ p ∈ c, p ≠ [] ∧ ∀ rec ∈ p, rec.map (·.1) = names) →
      (cs.flatten.flatten.map fun rec => rec.map (·.2)).map (fun r => (names.map (storedName fmt)).zip r)
        = cs.flatten.flatten.map (stored fmt) := by
    intro cs hcs
    rw [List.map_map]
    apply List.map_congr_left
    intro rec hr
    obtain ⟨p, hp, hrp⟩ := List.mem_flatten.1 hr
    obtain ⟨c, hc, hpc⟩ := List.mem_flatten.1 hp
    have := ((hcs c hc).2 p hpc).2 rec hrp
    subst this
    simp only [Function.comp_apply, stored]
    clear hr hrp hd hcs h
    induction rec with
    | nil => rfl
    | cons e es ih => simpa using ih
  cases colls with
  | nil => exact absurd rfl h0
  | cons c cs =>
    have hc := h c (by simp)
    refine ⟨⟨names.map (storedName fmt), (c.flatten ++ cs.flatten.flatten).map fun rec => rec.map (·.2)⟩, ?_, ?_⟩
    · rw [List.map_cons, write, writeColl, writeField_eq fmt hg none _ names hd c hc.1 (fun p hp => (hc.2 p hp).1)
        (fun p hp => (hc.2 p hp).2) (Or.inl rfl)]
      simp only [writeColl]
      rw [appendColls_eq fmt hg names hd cs _ (fun c hc => h c (by simp [hc]))]
      simp
    · have := hread (c :: cs) h
      simpa [Tabular.read] using this

example : ∃ f, write .shapefile [[[[[("TEMPERATURE_K", "1")]], [[("TEMPERATURE_K", "2")]]]], [[[[("TEMPERATURE_K", "3")]]]]] none = .ok (some f)
    ∧ read f = [[("TEMPERATUR", "1")], [("TEMPERATUR", "2")], [("TEMPERATUR", "3")]] :=
  ⟨⟨["TEMPERATUR"], [["1"], ["2"], ["3"]]⟩, by decide, by decide⟩

/-- C70 is false when the collections have different columns: the values of the second are written to CSV under the names of
the first, without an error (two datasets with differently named variables). -/
theorem C70_columns_counterexample : ∃ f, write .csv [[[[[("DAY", "1"), ("tas", "280")]]]], [[[[("DAY", "1"), ("pr", "3")]]]]] none = .ok (some f)
    ∧ read f = [[("DAY", "1"), ("tas", "280")], [("DAY", "1"), ("tas", "3")]] :=
  ⟨⟨["DAY", "tas"], [["1", "280"], ["1", "3"]]⟩, by decide, by decide⟩

/-- C70 is false when the first collection has several fields: each creates the file anew, and only the last is kept. -/
theorem C70_fields_counterexample : ∃ f, write .csv [[[[[("tas", "280")]]], [[[("tas", "281")]]]]] none = .ok (some f)
    ∧ read f = [[("tas", "281")]] :=
  ⟨⟨["tas"], [["281"]]⟩, by decide, by decide⟩

/-- C70 is false for GeoJSON: with several collections (one per geometry) or several ranks only the last part is kept. -/
theorem C70_geojson_counterexample :
    (∃ f, write .geojson [[[[[("UGID", "1")]]]], [[[[("UGID", "2")]]]]] none = .ok (some f) ∧ read f = [[("UGID", "2")]]) ∧
    ∃ f, write .geojson [[[[[("UGID", "1")]], [[("UGID", "2")]]]]] none = .ok (some f) ∧ read f = [[("UGID", "2")]] :=
  ⟨⟨⟨["UGID"], [["2"]]⟩, by decide, by decide⟩, ⟨⟨["UGID"], [["2"]]⟩, by decide, by decide⟩⟩

/-- C70 is false for shapefiles when two column names have the same first ten characters: one value is lost. -/
theorem C70_truncation_counterexample : ∃ f, write .shapefile [[[[[("temperature_max", "9"), ("temperature_min", "1")]]]]] none = .ok (some f)
    ∧ read f = [[("temperatur", "1")]] :=
  ⟨⟨["temperatur"], [["1"]]⟩, by decide, by decide⟩

/-- C70 is false when a rank has no records: taking the first record for the names of the columns fails. -/
theorem C70_empty_rank_counterexample : write .csv [[[[[("tas", "280")]], []]]] none = .error .runtimeError := by decide

end Ocgis.Props
