import Verif.Proofs.CsvShp
/-!
# C120: Tables with a shapefile of their geometries
-/
namespace Ocgis.Props
open Spec Ocgis.CsvShp Proofs.CsvShp

private def cellsA : Fld := ⟨some 1, some 7, [100, 101], none, [0, 1, 0, 1]⟩
private def cellsB : Fld := ⟨some 1, some 8, [200], none, [0]⟩
private def ownIds : Fld := ⟨some 2, none, [300], some ("STATE", [55]), [0]⟩

/-- Nothing fails, and every record of the table has in the shapefile the geometry it belongs to, under the same identifiers. Missing: identifiers
that the geometries have must be named `GID` (`C120_name_never`), and there is no shapefile for aggregated data (`C120_aggregated`). -/
theorem C120_found_partial (colls : List (List Fld)) (h : ∀ f ∈ colls.flatten, WellKept f) :
    (write false colls).err = none ∧
    ∀ k ∈ (write false colls).table, ∃ g, (k, g) ∈ (write false colls).shapes ∧ BelongsTo colls.flatten k g := by
  rw [write_all colls h]
  refine ⟨rfl, ?_⟩
  intro k hk
  simp only at hk ⊢
  obtain ⟨f, hf, hk⟩ := List.mem_flatMap.1 hk
  have hw := h f (kept_sub colls f hf)
  unfold tableOf at hk
  obtain ⟨r, hr, rfl⟩ := List.mem_map.1 hk
  have hlt := hw.1 r hr
  obtain ⟨id, hid, h1, h2⟩ := ids_at hw r hlt
  refine ⟨f.geoms[r], List.mem_flatMap.2 ⟨f, hf, mem_shapes.2 ⟨r, List.getElem?_eq_getElem hlt, rfl⟩⟩, ?_⟩
  exact ⟨f, kept_sub colls f hf, r, hr, id, by rw [hid], List.getElem?_eq_getElem hlt, h1, h2⟩

example : write false [[cellsA], [cellsB]] =
    { table := [⟨some 1, some 7, some 1⟩, ⟨some 1, some 7, some 2⟩, ⟨some 1, some 7, some 1⟩, ⟨some 1, some 7, some 2⟩, ⟨some 1, some 8, some 1⟩]
      shapes := [(⟨some 1, some 7, some 1⟩, 100), (⟨some 1, some 7, some 2⟩, 101), (⟨some 1, some 8, some 1⟩, 200)], err := none } := by
  decide +kernel

example : WellKept cellsA ∧ WellKept cellsB ∧ WellKept ⟨some 1, some 7, [5, 6], some ("GID", [12, 40]), [1]⟩ := by
  refine ⟨⟨by decide, ?_⟩, ⟨by decide, ?_⟩, ⟨by decide, ?_⟩⟩ <;> intro name ids h <;> cases h
  exact ⟨rfl, rfl, by decide⟩

/-- It is the only geometry under these identifiers if no two fields have the same identifiers of dataset and selection geometry. -/
theorem C120_only_partial (colls : List (List Fld)) (h : ∀ f ∈ colls.flatten, WellKept f)
    (hd : ∀ f ∈ colls.flatten, ∀ g ∈ colls.flatten, f.uid = g.uid → f.ugid = g.ugid → f = g) (k : Key) (a b : Nat)
    (ha : (k, a) ∈ (write false colls).shapes) (hb : (k, b) ∈ (write false colls).shapes) : a = b := by
  rw [write_all colls h] at ha hb
  simp only at ha hb
  obtain ⟨f, hf, ha⟩ := List.mem_flatMap.1 ha
  obtain ⟨g, hg, hb⟩ := List.mem_flatMap.1 hb
  obtain ⟨i, hi, hka⟩ := mem_shapes.1 ha
  obtain ⟨j, hj, hkb⟩ := mem_shapes.1 hb
  rw [hka] at hkb
  simp only [Key.mk.injEq] at hkb
  have hfg := hd f (kept_sub colls f hf) g (kept_sub colls g hg) hkb.1 hkb.2.1
  subst hfg
  have hw := h f (kept_sub colls f hf)
  have hl := ids_length hw
  have hij : i = j := by
    have hil := (List.getElem?_eq_some_iff.1 hi).1
    exact (List.getElem?_inj (by omega) (ids_nodup hw)).1 hkb.2.2
  subst hij
  rw [hi] at hj
  exact Option.some.inj hj

/-- Two fields of different collections with the same identifiers, as two datasets with one identifier have, make records of the table belong to
two geometries: new identifiers begin with one in each field. -/
theorem C120_clash_never (before : List Fld) (between after : List (List Fld)) (f g : Fld)
    (h : ∀ x ∈ ((before ++ [f]) :: between ++ [g] :: after).flatten, WellKept x)
    (hu : f.uid = g.uid) (hs : f.ugid = g.ugid) (hf : f.ids = none) (hg : g.ids = none) (i a b : Nat) (ha : f.geoms[i]? = some a)
    (hb : g.geoms[i]? = some b) :
    ({ did := f.uid, ugid := f.ugid, gid := some (1 + (i : Int)) }, a) ∈ (write false ((before ++ [f]) :: between ++ [g] :: after)).shapes ∧
    ({ did := f.uid, ugid := f.ugid, gid := some (1 + (i : Int)) }, b) ∈ (write false ((before ++ [f]) :: between ++ [g] :: after)).shapes := by
  have hid : ∀ (x : Fld) (c : Nat), x.ids = none → x.geoms[i]? = some c → (idsOf x).2[i]? = some (1 + (i : Int)) := by
    intro x c hx hc
    have := (List.getElem?_eq_some_iff.1 hc).1
    simp [idsOf, hx, this]
  rw [write_all _ h]
  simp only [List.cons_append, keptFrom, List.getLast?_append, List.getLast?_singleton, Option.some_or, Option.toList_some]
  constructor
  · exact List.mem_flatMap.2 ⟨f, by simp, mem_shapes.2 ⟨i, ha, by rw [hid f a hf ha]⟩⟩
  · exact List.mem_flatMap.2 ⟨g, by simp, mem_shapes.2 ⟨i, hb, by rw [hid g b hg hb, hu, hs]⟩⟩

example : (write false [[cellsA], [⟨some 1, some 7, [300], none, [0]⟩]]).shapes =
    [(⟨some 1, some 7, some 1⟩, 100), (⟨some 1, some 7, some 2⟩, 101), (⟨some 1, some 7, some 1⟩, 300)] := by decide +kernel

/-- Of a first collection with several fields only the last one is in the files. -/
theorem C120_first_never (before : List Fld) (f : Fld) (h : ∀ x ∈ before ++ [f], WellKept x) :
    write false [before ++ [f]] = { table := tableOf f, shapes := shapesOf f, err := none } := by
  rw [write_all _ (by simpa using h)]
  simp [keptFrom]

/-- Collections with one field each have all their fields in the files. -/
theorem C120_all (fs : List Fld) (h : ∀ f ∈ fs, WellKept f) :
    write false (fs.map fun f => [f]) = { table := fs.flatMap tableOf, shapes := fs.flatMap shapesOf, err := none } := by
  have hflat : ∀ l : List Fld, (l.map fun f => [f]).flatten = l := by
    intro l
    induction l with
    | nil => rfl
    | cons a l ih => simp [ih]
  rw [write_all _ (by rw [hflat]; exact h)]
  cases fs with
  | nil => rfl
  | cons f fs =>
    have : keptFrom false ((f :: fs).map fun f => [f]) = f :: fs := by
      simp only [List.map_cons, keptFrom, hflat, List.getLast?_singleton, Option.toList_some, List.singleton_append]
    rw [this]

/-- Geometries that have identifiers under another name end writing with an exception, when the table has their records already and the shapefile
does not. -/
theorem C120_name_never (f : Fld) (colls : List (List Fld)) (name : String) (ids : List Int) (hi : f.ids = some (name, ids)) (hn : name ≠ "GID") :
    write false ([f] :: colls) = { table := tableOf f, shapes := [], err := some .keyError } := by
  unfold write
  rw [writeFrom]
  unfold writeColl writeTable
  have : (idsOf f).1 = name := by simp [idsOf, hi]
  simp only [Bool.false_eq_true, if_false, List.foldl_cons, List.foldl_nil, put, writeShapes, this, hn, Option.isSome_some, if_true]

example : write false [[ownIds]] = { table := [⟨some 2, none, some 55⟩], shapes := [], err := some .keyError } := by decide +kernel

/-- Aggregated data have no shapefile of geometries, and nothing fails. -/
theorem C120_aggregated (colls : List (List Fld)) : (write true colls).shapes = [] ∧ (write true colls).err = none :=
  aggregate_state false colls _ rfl

end Ocgis.Props
