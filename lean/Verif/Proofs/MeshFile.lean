import Verif.Spec.MeshFile
import Verif.Proofs.MeshReduce
import Verif.Proofs.Text

namespace Ocgis.Proofs.MeshFile
open Ocgis Ocgis.Text Ocgis.Geomc Ocgis.MeshReduce Ocgis.MeshFile Ocgis.Spec Ocgis.Proofs.MeshReduce
open Ocgis.Props (split_unique raggedNodes_cons)

theorem lookup_append {β : Type _} (vars : List (Text × β)) (h : Text × β) (n : Text) (v : β)
    (hn : vars.lookup n = some v) : (vars ++ [h]).lookup n = some v := by
  induction vars with
  | nil => cases hn
  | cons p ps ih =>
    rw [List.cons_append, List.lookup_cons]
    rw [List.lookup_cons] at hn
    cases e : n == p.1 with
    | true => rw [e] at hn; exact hn
    | false => rw [e] at hn; exact ih hn

theorem coordinates_ok (vars : List (Text × VarInfo)) (names : List Text) (k : Nat) (hk : names.length ≤ k)
    (h : ∀ n ∈ names, ∃ v, vars.lookup n = some v ∧ v.dims ≠ []) :
    ∃ cs, coordinates vars k names = .ok cs ∧ LeadsTo vars names cs := by
  induction names generalizing k with
  | nil => exact ⟨[], by cases k <;> rfl, rfl, by simp⟩
  | cons n ns ih =>
    cases k with
    | zero => simp at hk
    | succ k =>
      obtain ⟨cs, h1, h2, h3⟩ := ih k (by simpa using hk) fun m hm => h m (by simp [hm])
      obtain ⟨v, hv, hd⟩ := h n (by simp)
      cases hdd : v.dims with
      | nil => exact absurd hdd hd
      | cons d ds =>
        refine ⟨(n, d) :: cs, ?_, by simp [h2], ?_⟩
        · rw [coordinates]
          have : coordinate vars n = .ok (n, d) := by simp only [coordinate, hv, hdd]
          rw [this, h1]
        · intro p hp
          rcases List.mem_cons.1 hp with e | e
          · subst e; exact ⟨v, ds, hv, hdd⟩
          · exact h3 p e

theorem join_names (t : Topo) (hx : t.x.isSome) (hy : t.y.isSome) :
    joinNames t.x t.y t.z = .ok (joined ' ' (topoNames t)) := by
  obtain ⟨x, y, z, c⟩ := t
  cases x with
  | none => cases hx
  | some x => cases y with
    | none => cases hy
    | some y => rfl

theorem coord_length (t : Topo) : (topoNames t).length ≤ 3 := by
  obtain ⟨x, y, z, c⟩ := t
  cases x <;> cases y <;> cases z <;> simp [topoNames]

theorem coord_ne (t : Topo) (hx : t.x.isSome) : topoNames t ≠ [] := by
  obtain ⟨x, y, z, c⟩ := t
  cases x with
  | none => cases hx
  | some x => simp [topoNames]

theorem set_ok (vars : List (Text × VarInfo)) (t : Topo) (h : UsableTopo vars t) (hx : t.x.isSome) :
    ∃ cs, setCoordinates vars (some (joined ' ' (topoNames t))) = .ok (some cs) ∧ LeadsTo vars (topoNames t) cs := by
  obtain ⟨cs, h1, h2⟩ := coordinates_ok vars (topoNames t) 3 (coord_length t) fun n hn => (h.2 n hn).2
  refine ⟨cs, ?_, h2⟩
  rw [setCoordinates]
  simp only [split_unique ' ' (topoNames t) (coord_ne t hx) fun n hn => (h.2 n hn).1, h1]

theorem usable_append (vars : List (Text × VarInfo)) (h : Text × VarInfo) (t : Topo) (hu : UsableTopo vars t) :
    UsableTopo (vars ++ [h]) t := by
  refine ⟨hu.1, fun n hn => ⟨(hu.2 n hn).1, ?_⟩⟩
  obtain ⟨v, hv, hd⟩ := (hu.2 n hn).2
  exact ⟨v, lookup_append vars h n v hv, hd⟩

theorem leads_of_append (vars : List (Text × VarInfo)) (h : Text × VarInfo) (names : List Text)
    (cs : List (Text × Text)) (hs : ∀ n ∈ names, ∃ v, vars.lookup n = some v) (hl : LeadsTo (vars ++ [h]) names cs) :
    LeadsTo vars names cs := by
  refine ⟨hl.1, fun p hp => ?_⟩
  obtain ⟨v, rest, hv, hd⟩ := hl.2 p hp
  obtain ⟨w, hw⟩ := hs p.1 (by rw [← hl.1]; exact List.mem_map_of_mem hp)
  have := lookup_append vars h p.1 w hw
  rw [hv] at this
  injection this with this
  subst this
  exact ⟨v, rest, hw, hd⟩

theorem findHost_append (vars : List (Text × VarInfo)) (n : Text) (h : Host) :
    findHost (vars ++ [(n, ⟨[], some h⟩)]) = some (n, h) := by
  rw [findHost, List.filterMap_append]
  simp

theorem ragged_rows (rs : List (List Int)) (i : Nat) (r : List Int) (h : rs[i]? = some r) :
    raggedNodes (rs.map List.length) rs.flatten i = r := by
  induction rs generalizing i with
  | nil => simp at h
  | cons q qs ih =>
    cases i with
    | zero =>
      simp only [List.getElem?_cons_zero, Option.some.injEq] at h
      subst h
      simp [raggedNodes, raggedStart, raggedStop]
    | succ i =>
      rw [List.map_cons, raggedNodes_cons, List.flatten_cons, List.drop_left']
      · exact ih i (by simpa using h)
      · rfl

theorem shapes_layout {α : Type _} (nodes : List α) (rs : List (List Int)) (o o' : Bool) (s : Int) (b : Option Int)
    (d d' : Int) (mask : List Bool) :
    Mesh.shapes ⟨nodes, .ragged (rs.map List.length) rs.flatten, o, s, b, none, d, mask⟩
      = Mesh.shapes ⟨nodes, .rows rs, o', s, b, none, d', mask⟩ := by
  rw [shapes_eq, shapes_eq]
  simp only [Mesh.start, Conn.size, List.length_map]
  apply mapM_congr
  intro i hi
  rw [List.mem_range] at hi
  have hr : rs[i]? = some rs[i] := List.getElem?_eq_getElem hi
  rw [shapeOf, shapeOf]
  simp only [elementNodes, ragged_rows rs i _ hr, hr]

theorem column_zip {α : Type _} (xs ys : List α) (h : xs.length = ys.length) :
    (List.zipWith (fun a b => [a, b]) xs ys).mapM (fun r => r[0]?) = some xs
    ∧ (List.zipWith (fun a b => [a, b]) xs ys).mapM (fun r => r[1]?) = some ys := by
  induction xs generalizing ys with
  | nil => cases ys with
    | nil => exact ⟨rfl, rfl⟩
    | cons y ys => simp at h
  | cons x xs ih => cases ys with
    | nil => simp at h
    | cons y ys =>
      obtain ⟨h1, h2⟩ := ih ys (by simpa using h)
      constructor
      · rw [List.zipWith_cons_cons, List.mapM_cons, h1]; rfl
      · rw [List.zipWith_cons_cons, List.mapM_cons, h2]; rfl

theorem section_zip {α : Type _} (xs ys : List α) (h : xs.length = ys.length) (h1 : 1 < xs.length) :
    section' (List.zipWith (fun a b => [a, b]) xs ys) 0 = .ok (.vector xs)
    ∧ section' (List.zipWith (fun a b => [a, b]) xs ys) 1 = .ok (.vector ys) := by
  obtain ⟨c1, c2⟩ := column_zip xs ys h
  constructor
  · simp only [section', c1, if_pos h1]
  · simp only [section', c2, if_pos (h ▸ h1)]

theorem two_columns {α : Type _} (rows : List (List α)) (h : ∀ r ∈ rows, r.length = 2) :
    ∃ xs ys : List α, rows = List.zipWith (fun a b => [a, b]) xs ys ∧ xs.length = rows.length
      ∧ ys.length = rows.length := by
  induction rows with
  | nil => exact ⟨[], [], rfl, rfl, rfl⟩
  | cons r rs ih =>
    obtain ⟨xs, ys, h1, h2, h3⟩ := ih fun q hq => h q (by simp [hq])
    have hr := h r (by simp)
    match r, hr with
    | [a, b], _ => exact ⟨a :: xs, b :: ys, by rw [List.zipWith_cons_cons, ← h1], by simp [h2], by simp [h3]⟩

theorem section_two {α : Type _} (rows : List (List α)) (h : TwoColumns rows) :
    ∃ xs ys : List α, section' rows 0 = .ok (.vector xs) ∧ section' rows 1 = .ok (.vector ys)
      ∧ rejoin (.vector xs) (.vector ys) = .ok rows := by
  obtain ⟨xs, ys, h1, h2, h3⟩ := two_columns rows h.2
  have h4 := section_zip xs ys (by omega) (by have := h.1; omega)
  rw [← h1] at h4
  exact ⟨xs, ys, h4.1, h4.2, by rw [rejoin, ← h1]⟩

end Ocgis.Proofs.MeshFile
