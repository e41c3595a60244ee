import Verif.Spec.CsvShp
/-!
# Lemmas on tables with shapefiles
-/
namespace Ocgis.Proofs.CsvShp
open Spec Ocgis.CsvShp

theorem name_ok {f : Fld} (h : WellKept f) : (idsOf f).1 = "GID" := by
  unfold idsOf
  cases hi : f.ids with
  | none => rfl
  | some p => exact (h.2 p.1 p.2 hi).1

theorem ids_length {f : Fld} (h : WellKept f) : (idsOf f).2.length = f.geoms.length := by
  unfold idsOf
  cases hi : f.ids with
  | none => simp
  | some p => exact (h.2 p.1 p.2 hi).2.1

theorem ids_nodup {f : Fld} (h : WellKept f) : (idsOf f).2.Nodup := by
  unfold idsOf
  cases hi : f.ids with
  | none =>
    simp only [Option.getD_none]
    unfold List.Nodup
    rw [List.pairwise_map]
    exact List.nodup_range.imp (fun hab he => hab (by omega))
  | some p => exact (h.2 p.1 p.2 hi).2.2

theorem ids_at {f : Fld} (h : WellKept f) (r : Nat) (hr : r < f.geoms.length) :
    ∃ id, (idsOf f).2[r]? = some id ∧ (f.ids = none → id = 1 + (r : Int)) ∧ ∀ name ids, f.ids = some (name, ids) → ids[r]? = some id := by
  have hl := ids_length h
  refine ⟨(idsOf f).2[r], List.getElem?_eq_getElem _, ?_, ?_⟩
  · intro hn
    simp [idsOf, hn]
  · intro name ids hi
    have he : (idsOf f).2 = ids := by simp [idsOf, hi]
    rw [← he]
    exact List.getElem?_eq_getElem (by omega)

theorem mem_shapes {f : Fld} {k : Key} {g : Nat} :
    (k, g) ∈ shapesOf f ↔ ∃ i : Nat, f.geoms[i]? = some g ∧ k = { did := f.uid, ugid := f.ugid, gid := (idsOf f).2[i]? } := by
  unfold shapesOf
  rw [List.mem_map]
  constructor
  · rintro ⟨⟨g', i⟩, hm, he⟩
    have hg := List.mem_zipIdx_iff_getElem?.1 hm
    cases he
    exact ⟨i, hg, rfl⟩
  · rintro ⟨i, hg, rfl⟩
    exact ⟨(g, i), List.mem_zipIdx_iff_getElem?.2 hg, rfl⟩

theorem writeShapes_ok (append : Bool) : ∀ (fs : List Fld) (s : State), (∀ f ∈ fs, WellKept f) →
    writeShapes append fs s = { s with shapes := fs.foldl (fun file f => put append file (shapesOf f)) s.shapes }
  | [], s, _ => rfl
  | f :: fs, s, h => by
    rw [writeShapes, if_pos (name_ok (h f (List.mem_cons_self ..))), writeShapes_ok append fs _ fun g hg => h g (List.mem_cons_of_mem _ hg)]
    rfl

/-- What the files keep of the fields of a collection. -/
theorem put_kept {α : Type} (rows : Fld → List α) (append : Bool) (fs : List Fld) : ∀ file : List α,
    fs.foldl (fun file f => put append file (rows f)) file =
      if append then file ++ fs.flatMap rows else (match fs.getLast? with | some f => rows f | none => file) := by
  cases append with
  | true =>
    simp only [put, if_true]
    induction fs with
    | nil => intro file; simp
    | cons f fs ih => intro file; rw [List.foldl_cons, ih, List.flatMap_cons, List.append_assoc]
  | false =>
    simp only [put, Bool.false_eq_true, if_false]
    induction fs with
    | nil => intro file; rfl
    | cons f fs ih =>
      intro file
      rw [List.foldl_cons, ih, List.getLast?_cons]
      cases fs.getLast? <;> rfl

/-- The fields whose records are in the files at the end. -/
def keptFrom : Bool → List (List Fld) → List Fld
  | _, [] => []
  | true, cs => cs.flatten
  | false, c :: cs => c.getLast?.toList ++ cs.flatten

theorem append_all (cs : List (List Fld)) (h : ∀ f ∈ cs.flatten, WellKept f) : ∀ s : State, s.err = none →
    writeFrom false true cs s = { s with table := s.table ++ cs.flatten.flatMap tableOf, shapes := s.shapes ++ cs.flatten.flatMap shapesOf } := by
  induction cs with
  | nil => intro s _; simp [writeFrom]
  | cons c cs ih =>
    intro s hs
    have hc : ∀ f ∈ c, WellKept f := fun f hf => h f (by simp [hf])
    rw [writeFrom]
    unfold writeColl writeTable
    simp only [Bool.false_eq_true, if_false]
    rw [writeShapes_ok true c _ hc, put_kept tableOf, put_kept shapesOf]
    simp only [if_true, hs, Option.isSome_none, Bool.false_eq_true, if_false]
    rw [ih (fun f hf => h f (by rw [List.flatten_cons]; exact List.mem_append_right _ hf)) _ rfl]
    simp

/-- The files at the end are the records of the same fields. -/
theorem write_all (colls : List (List Fld)) (h : ∀ f ∈ colls.flatten, WellKept f) :
    write false colls = { table := (keptFrom false colls).flatMap tableOf, shapes := (keptFrom false colls).flatMap shapesOf, err := none } := by
  unfold write
  cases colls with
  | nil => rfl
  | cons c cs =>
    have hc : ∀ f ∈ c, WellKept f := fun f hf => h f (by simp [hf])
    rw [writeFrom]
    unfold writeColl writeTable
    simp only [Bool.false_eq_true, if_false]
    rw [writeShapes_ok false c _ hc, put_kept tableOf, put_kept shapesOf]
    simp only [Option.isSome_none, Bool.false_eq_true, if_false]
    rw [append_all cs (fun f hf => h f (by rw [List.flatten_cons]; exact List.mem_append_right _ hf)) _ rfl]
    show _ = State.mk ((c.getLast?.toList ++ cs.flatten).flatMap tableOf) ((c.getLast?.toList ++ cs.flatten).flatMap shapesOf) none
    cases hl : c.getLast? with
    | none => simp
    | some f => simp

theorem kept_sub (colls : List (List Fld)) : ∀ f ∈ keptFrom false colls, f ∈ colls.flatten := by
  intro f hf
  cases colls with
  | nil => exact hf
  | cons c cs =>
    unfold keptFrom at hf
    rw [List.flatten_cons]
    rcases List.mem_append.1 hf with hf | hf
    · cases hl : c.getLast? with
      | none => rw [hl] at hf; cases hf
      | some g =>
        rw [hl] at hf
        simp only [Option.toList_some, List.mem_singleton] at hf
        rw [hf]
        exact List.mem_append_left _ (List.mem_of_getLast? hl)
    · exact List.mem_append_right _ hf

theorem aggregate_state (append : Bool) (cs : List (List Fld)) : ∀ s : State, s.err = none →
    (writeFrom true append cs s).shapes = s.shapes ∧ (writeFrom true append cs s).err = none := by
  induction cs generalizing append with
  | nil => intro s h; exact ⟨rfl, h⟩
  | cons c cs ih =>
    intro s h
    rw [writeFrom]
    unfold writeColl
    simp only [if_true, h, Option.isSome_none, Bool.false_eq_true, if_false]
    exact ih true _ rfl

end Ocgis.Proofs.CsvShp
