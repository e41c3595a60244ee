import Verif.Proofs.MeshFile

/-!
# C102: a mesh written to a file is read back
-/

namespace Ocgis.Props
open Ocgis Ocgis.Text Ocgis.Geomc Ocgis.MeshReduce Ocgis.MeshFile Ocgis.Spec Ocgis.Proofs.MeshFile

/-- **C102 (UGRID, partial)**: a mesh of polygons, with or without face coordinates, is written with a topology variable
from which reading finds the same node coordinates in the same order, the same connectivity and the same face
coordinates, each with its first dimension; all variables of the field are in the file.  Missing: a field that still
has the topology variable it was read with (`C102_old_host_counterexample`), meshes of points only
(`C102_points_only_counterexample`), names with blanks (`C102_blank_counterexample`). -/
theorem C102_ugrid_names_partial (m : Names) (vars : List (Text × VarInfo)) (t : Topo) (c : Text)
    (hpoly : m.poly = some t) (hx : t.x.isSome) (hconn : t.conn = some c)
    (ht : UsableTopo vars t) (hc : ∃ v, vars.lookup c = some v ∧ v.dims ≠ [])
    (hpoint : ∀ p, m.point = some p → UsableTopo vars p)
    (hhost : ∀ h, m.host = some h → vars.lookup h = none) (hfree : vars.lookup hostName = none) :
    ∃ file r, writeUgrid m vars = .ok file ∧ readUgrid file = .ok r ∧ (∀ v ∈ vars, v ∈ file)
      ∧ (∃ cs, r.nodes = some cs ∧ LeadsTo vars (topoNames t) cs)
      ∧ (∃ d, r.conn = some (c, d) ∧ LeadsTo vars [c] [(c, d)])
      ∧ (∀ p, m.point = some p → p.x.isSome → ∃ cs, r.faces = some cs ∧ LeadsTo vars (topoNames p) cs)
      ∧ ((∀ p, m.point = some p → p.x = none) → r.faces = none) := by
  have hnodes : nodeNames m.poly = .ok (some (joined ' ' (topoNames t))) := by
    rw [hpoly, nodeNames]
    simp only [join_names t hx (ht.1 hx)]
  obtain ⟨faces, hfaces, hf1, hf2⟩ : ∃ faces, faceNames m.point = .ok faces
      ∧ (∀ p, m.point = some p → p.x.isSome → faces = some (joined ' ' (topoNames p)))
      ∧ ((∀ p, m.point = some p → p.x = none) → faces = none) := by
    cases hp : m.point with
    | none => exact ⟨none, rfl, fun p h => (by cases h), fun _ => rfl⟩
    | some p =>
      cases hpx : p.x with
      | none =>
        refine ⟨none, by simp [faceNames, hpx], ?_, fun _ => rfl⟩
        intro q hq hqx
        injection hq with hq
        subst hq
        rw [hpx] at hqx; cases hqx
      | some x =>
        have hps : p.x.isSome := by rw [hpx]; rfl
        refine ⟨some (joined ' ' (topoNames p)), ?_, ?_, ?_⟩
        · rw [faceNames]
          simp only [hpx, Option.isNone_some]
          rw [← hpx, join_names p hps ((hpoint p hp).1 hps)]; rfl
        · intro q hq _
          injection hq with hq
          subst hq; rfl
        · intro h
          have := h p rfl
          rw [hpx] at this; cases this
  have hcreate : createHost m = .ok ⟨some (joined ' ' (topoNames t)), faces, some c⟩ := by
    rw [createHost, hfaces, hnodes, hpoly]
    simp [hconn]
  let hv : Text × VarInfo := (hostName, ⟨[], some ⟨some (joined ' ' (topoNames t)), faces, some c⟩⟩)
  have hwrite : writeUgrid m vars = .ok (vars ++ [hv]) := by
    rw [writeUgrid, if_pos, hcreate]
    · simp [hfree, hv]
    · cases hh : m.host with
      | none => rfl
      | some h => simp [hhost h hh]
  have hfind : findHost (vars ++ [hv]) = some (hostName, ⟨some (joined ' ' (topoNames t)), faces, some c⟩) :=
    findHost_append _ _ _
  obtain ⟨cs, hcs, hcl⟩ := set_ok (vars ++ [hv]) t (usable_append _ _ _ ht) hx
  have hcl' := leads_of_append vars hv _ cs (fun n hn => by obtain ⟨v, hv', _⟩ := (ht.2 n hn).2; exact ⟨v, hv'⟩) hcl
  obtain ⟨v, hv', hd⟩ := hc
  obtain ⟨d, ds, hdd⟩ : ∃ d ds, v.dims = d :: ds := by
    cases hvd : v.dims with
    | nil => exact absurd hvd hd
    | cons d ds => exact ⟨d, ds, rfl⟩
  have hcoord : coordinate (vars ++ [hv]) c = .ok (c, d) := by
    rw [coordinate, lookup_append vars hv c v hv']
    simp only [hdd]
  obtain ⟨fcs, hfcs, hfc1, hfc2⟩ : ∃ fcs, setCoordinates (vars ++ [hv]) faces = .ok fcs
      ∧ (∀ p, m.point = some p → p.x.isSome → ∃ cs, fcs = some cs ∧ LeadsTo vars (topoNames p) cs)
      ∧ ((∀ p, m.point = some p → p.x = none) → fcs = none) := by
    by_cases hp : ∃ p, m.point = some p ∧ p.x.isSome
    · obtain ⟨p, hp, hpx⟩ := hp
      obtain ⟨ps, hps, hpl⟩ := set_ok (vars ++ [hv]) p (usable_append _ _ _ (hpoint p hp)) hpx
      refine ⟨some ps, by rw [hf1 p hp hpx]; exact hps, ?_, ?_⟩
      · intro q hq _
        rw [hp] at hq
        injection hq with hq
        subst hq
        exact ⟨ps, rfl, leads_of_append vars hv _ ps
          (fun n hn => by obtain ⟨v, hv', _⟩ := ((hpoint p hp).2 n hn).2; exact ⟨v, hv'⟩) hpl⟩
      · intro h
        rw [h p hp] at hpx; cases hpx
    · have hnone : ∀ p, m.point = some p → p.x = none := by
        intro p hpp
        cases hpx : p.x with
        | none => rfl
        | some x => exact absurd ⟨p, hpp, by rw [hpx]; rfl⟩ hp
      refine ⟨none, by rw [hf2 hnone]; rfl, ?_, fun _ => rfl⟩
      intro p hpp hpx
      exact absurd ⟨p, hpp, hpx⟩ hp
  refine ⟨vars ++ [hv], ⟨some cs, some (c, d), fcs, hostName⟩, hwrite, ?_, ?_, ⟨cs, rfl, hcl'⟩, ⟨d, rfl, rfl, ?_⟩, hfc1, hfc2⟩
  · rw [readUgrid, hfind]
    simp only [hfcs, hcs, hcoord]
  · intro w hw; exact List.mem_append_left _ hw
  · intro p hp
    rw [List.mem_singleton] at hp
    subst hp
    exact ⟨v, ds, hv', hdd⟩

/-- A mesh of triangles with centres. -/
def meshNames : Names :=
  ⟨some ⟨some "nx".toList, some "ny".toList, none, some "faces".toList⟩, none,
    some ⟨some "cx".toList, some "cy".toList, none, none⟩, none⟩

/-- Its variables. -/
def meshVars : List (Text × VarInfo) :=
  [("nx".toList, ⟨["node".toList], none⟩), ("ny".toList, ⟨["node".toList], none⟩),
    ("faces".toList, ⟨["face".toList, "corner".toList], none⟩), ("cx".toList, ⟨["face".toList], none⟩),
    ("cy".toList, ⟨["face".toList], none⟩), ("tas".toList, ⟨["face".toList], none⟩)]

example : ∃ file r, writeUgrid meshNames meshVars = .ok file ∧ readUgrid file = .ok r
    ∧ r.nodes = some [("nx".toList, "node".toList), ("ny".toList, "node".toList)]
    ∧ r.conn = some ("faces".toList, "face".toList) ∧ distributedDimension r = .ok "face".toList :=
  ⟨_, _, rfl, rfl, rfl, rfl, rfl⟩

example : (∀ t, meshNames.poly = some t → UsableTopo meshVars t) ∧ (∀ p, meshNames.point = some p → UsableTopo meshVars p)
    ∧ meshVars.lookup hostName = none := by
  refine ⟨?_, ?_, by decide⟩
  · intro t ht; injection ht with ht; subst ht
    refine ⟨fun _ => rfl, ?_⟩
    intro n hn
    rcases List.mem_cons.1 hn with e | hn
    · subst e; exact ⟨by decide, _, rfl, by decide⟩
    · rcases List.mem_cons.1 hn with e | hn
      · subst e; exact ⟨by decide, _, rfl, by decide⟩
      · cases hn
  · intro t ht; injection ht with ht; subst ht
    refine ⟨fun _ => rfl, ?_⟩
    intro n hn
    rcases List.mem_cons.1 hn with e | hn
    · subst e; exact ⟨by decide, _, rfl, by decide⟩
    · rcases List.mem_cons.1 hn with e | hn
      · subst e; exact ⟨by decide, _, rfl, by decide⟩
      · cases hn

/-- **C102 (UGRID, what is distributed)**: the dimension by which a mesh of polygons is divided among processes is the
first dimension of its connectivity. -/
theorem C102_distributed_partial (vars : List (Text × VarInfo)) (r : ReadNames) (h : readUgrid vars = .ok r)
    (hn : r.nodes ≠ none) :
    ∃ c d v rest, distributedDimension r = .ok d ∧ r.conn = some (c, d) ∧ vars.lookup c = some v ∧ v.dims = d :: rest := by
  rw [readUgrid] at h
  split at h
  · cases h
  · split at h
    · cases h
    · split at h
      · cases h
      · injection h with h; subst h; exact absurd rfl hn
      · split at h
        · cases h
        · next c hc =>
          split at h
          · cases h
          · next p hp =>
            injection h with h
            subst h
            rw [coordinate] at hp
            split at hp
            · cases hp
            · next v hv =>
              split at hp
              · cases hp
              · next d ds hd =>
                injection hp with hp
                subst hp
                exact ⟨c, d, v, ds, rfl, rfl, hv, hd⟩

/-- **C102 (counterexample, points only)**: a mesh with face coordinates but no polygons is written, and read as far as
its names, but no dimension can be found to distribute, so it cannot be opened. -/
theorem C102_points_only_counterexample (r : ReadNames) (hn : r.nodes = none) (hc : r.conn = none) :
    distributedDimension r = .error .valueError := by
  rw [distributedDimension, hc, hn]

example : ∃ file r, writeUgrid { meshNames with poly := none } meshVars = .ok file ∧ readUgrid file = .ok r
    ∧ r.faces = some [("cx".toList, "face".toList), ("cy".toList, "face".toList)]
    ∧ distributedDimension r = .error .valueError := ⟨_, _, rfl, rfl, rfl, rfl⟩

/-- **C102 (counterexample, old host)**: centres added to a mesh that was read from a file are written but not named,
because the old topology variable is kept as it is. -/
theorem C102_old_host_counterexample :
    let old : Text × VarInfo := ("mesh".toList, ⟨[], some ⟨some "nx ny".toList, none, some "faces".toList⟩⟩)
    let m : Names := { meshNames with host := some "mesh".toList }
    ∃ r, writeUgrid m (old :: meshVars) = .ok (old :: meshVars) ∧ readUgrid (old :: meshVars) = .ok r
      ∧ m.point.isSome ∧ r.faces = none := ⟨_, rfl, rfl, rfl, rfl⟩

/-- **C102 (counterexample, blanks)**: two blanks between names, or a blank in a name, make the file unreadable. -/
theorem C102_blank_counterexample :
    readUgrid (meshVars ++ [("mesh".toList, ⟨[], some ⟨some "nx  ny".toList, none, some "faces".toList⟩⟩)]) = .error .keyError
    ∧ ∃ file, writeUgrid { meshNames with poly := some ⟨some "n x".toList, some "ny".toList, none, some "faces".toList⟩ }
        (("n x".toList, ⟨["node".toList], none⟩) :: meshVars) = .ok file ∧ readUgrid file = .error .keyError :=
  ⟨rfl, _, rfl, rfl⟩

/-! ### ESMF unstructured files -/

/-- Four nodes, two triangles, numbered from 1. -/
def esmfMesh : UgridMesh Int :=
  ⟨[0, 1, 1, 0], [0, 0, 1, 1], none, [[1, 2, 3], [1, 3, 4]], 1, none, some ([0, 1], [0, 1]), some ("elementMask".toList, [false, true])⟩

/-- **C102 (ESMF unstructured, written, partial)**: a mesh of two coordinates and at least two nodes is written so that
reading gives the same coordinates, the same start index and break value, and the same shape for every element, and the
mask if it is named as in the format.  Missing: centres (`C102_centres_counterexample`), masks of other names
(`C102_mask_counterexample`), a third coordinate (`C102_height_refused_counterexample`) and empty meshes. -/
theorem C102_esmf_written_partial {α : Type _} (m : UgridMesh α) (hz : m.z = none) (hne : m.rows ≠ [])
    (hxy : m.x.length = m.y.length) (h2 : 1 < m.x.length) :
    ∃ f r, fromUgrid m = .ok f ∧ readEsmf f = .ok r ∧ r.x = .vector m.x ∧ r.y = .vector m.y ∧ r.start = m.start
      ∧ r.brk = m.brk ∧ esmfShapes r m.x m.y = ugridShapes m
      ∧ (∀ vs, m.mask = some (maskName, vs) → r.mask = some vs) := by
  obtain ⟨s1, s2⟩ := section_zip m.x m.y hxy h2
  let mk : Option (List Bool) := match m.mask with
    | some (n, vs) => if n = maskName then some vs else none
    | none => none
  refine ⟨⟨List.zipWith (fun a b => [a, b]) m.x m.y, m.rows.map List.length, m.rows.flatten, some m.start, m.brk, none, mk⟩,
    ⟨.vector m.x, .vector m.y, .ragged (m.rows.map List.length) m.rows.flatten, m.start, m.brk, none, mk⟩,
    ?_, ?_, rfl, rfl, rfl, rfl, ?_, ?_⟩
  · rw [fromUgrid, hz]
    rw [if_neg (by simp), if_neg (by simpa using hne)]
    rfl
  · simp only [readEsmf, s1, s2, readCentres, Option.getD_some]
  · exact shapes_layout _ _ _ _ _ _ _ _ _
  · intro vs hvs
    simp only [mk, hvs, if_true]

example : ∃ f r, fromUgrid esmfMesh = .ok f ∧ readEsmf f = .ok r ∧ f.counts = [3, 3] ∧ f.flat = [1, 2, 3, 1, 3, 4]
    ∧ ugridShapes esmfMesh = .ok [some [[(0, 0), (1, 0), (1, 1)]], some [[(0, 0), (1, 1), (0, 1)]]]
    ∧ r.mask = some [false, true] := ⟨_, _, rfl, rfl, rfl, rfl, rfl, rfl⟩

/-- **C102 (counterexample, centres)**: the centres of no mesh are found again. -/
theorem C102_centres_counterexample {α : Type _} (m : UgridMesh α) (f : EsmfFile α) (r : EsmfMesh α)
    (h : fromUgrid m = .ok f) (hr : readEsmf f = .ok r) : r.centres = none := by
  have hc : f.centerCoords = none := by
    rw [fromUgrid] at h
    split at h
    · cases h
    · split at h
      · cases h
      · injection h with h; subst h; rfl
  rw [readEsmf] at hr
  split at hr
  · cases hr
  · split at hr
    · cases hr
    · rw [hc, readCentres] at hr
      injection hr with hr
      subst hr; rfl

/-- **C102 (counterexample, mask)**: a mask of any other name is not found again. -/
theorem C102_mask_counterexample :
    ∃ f r, fromUgrid { esmfMesh with mask := some ("mask".toList, [false, true]) } = .ok f ∧ readEsmf f = .ok r
      ∧ r.mask = none := ⟨_, _, rfl, rfl, rfl⟩

/-- **C102 (counterexample, a third coordinate)**: meshes with heights are refused. -/
theorem C102_height_refused_counterexample {α : Type _} (m : UgridMesh α) (h : m.z.isSome) :
    fromUgrid m = .error .assertionError := by
  rw [fromUgrid, if_pos h]

/-- **C102 (ESMF unstructured, rewritten, partial)**: a file with two coordinates, read and written again, whether its
coordinates have been used or not, is as before, except that the start index is stated; and it is read as the same
mesh.  Missing: a third coordinate (`C102_third_column_counterexample`), one element with its centre
(`C102_one_centre_counterexample`), meshes whose shapes were iterated over first (`C102_iterated_counterexample`). -/
theorem C102_esmf_rewritten_partial {α : Type _} (f : EsmfFile α) (usedNodes usedCentres : Bool)
    (hn : TwoColumns f.nodeCoords) (hc : ∀ rows, f.centerCoords = some rows → TwoColumns rows) :
    ∃ m, readEsmf f = .ok m
      ∧ writeEsmf f m usedNodes usedCentres = .ok { f with startAttr := some m.start }
      ∧ readEsmf { f with startAttr := some m.start } = .ok m := by
  obtain ⟨xs, ys, h1, h2, h3⟩ := section_two f.nodeCoords hn
  obtain ⟨c, hcr, hcw⟩ : ∃ c, readCentres f.centerCoords = .ok c
      ∧ ∀ u, writeCentres u f.centerCoords c = .ok f.centerCoords := by
    cases hf : f.centerCoords with
    | none => exact ⟨none, rfl, fun u => by cases u <;> rfl⟩
    | some rows =>
      obtain ⟨cx, cy, c1, c2, c3⟩ := section_two rows (hc rows hf)
      refine ⟨some (.vector cx, .vector cy), by simp only [readCentres, c1, c2], fun u => ?_⟩
      cases u with
      | false => rfl
      | true => simp only [writeCentres, c3, if_true]
  refine ⟨⟨.vector xs, .vector ys, .ragged f.counts f.flat, f.startAttr.getD 1, f.breakAttr, c, f.elementMask⟩, ?_, ?_, ?_⟩
  · simp only [readEsmf, h1, h2, hcr]
  · simp only [writeEsmf, hcw]
    cases usedNodes with
    | false => rfl
    | true => simp only [h3, if_true]
  · simp only [readEsmf, h1, h2, hcr, Option.getD_some]

/-- A file as other programs write it: no start index stated. -/
def esmfFile : EsmfFile Int :=
  ⟨[[0, 0], [1, 0], [1, 1], [0, 1]], [3, 3], [1, 2, 3, 1, 3, 4], none, none, some [[1, 0], [0, 1]], none⟩

example : TwoColumns esmfFile.nodeCoords ∧ ∀ rows, esmfFile.centerCoords = some rows → TwoColumns rows := by
  refine ⟨⟨by decide, by decide⟩, ?_⟩
  intro rows h; injection h with h; subst h; exact ⟨by decide, by decide⟩

/-- **C102 (counterexample, a third column)**: heights of nodes in the file are dropped when the coordinates have been
used. -/
theorem C102_third_column_counterexample :
    let f : EsmfFile Int := { esmfFile with nodeCoords := [[0, 0, 7], [1, 0, 8], [1, 1, 9], [0, 1, 7]], centerCoords := none }
    ∃ m g, readEsmf f = .ok m ∧ writeEsmf f m true true = .ok g ∧ g.nodeCoords = [[0, 0], [1, 0], [1, 1], [0, 1]]
      ∧ writeEsmf f m false true = .ok { f with startAttr := some 1 } :=
  ⟨_, _, rfl, rfl, rfl, rfl⟩

/-- **C102 (counterexample, one element)**: the centre of a single element has no dimension, and cannot be written. -/
theorem C102_one_centre_counterexample :
    let f : EsmfFile Int := { esmfFile with counts := [3], flat := [1, 2, 3], centerCoords := some [[1, 0]] }
    ∃ m, readEsmf f = .ok m ∧ m.centres = some (.scalar 1, .scalar 0) ∧ writeEsmf f m true true = .error .indexError :=
  ⟨_, rfl, rfl, rfl⟩

/-- **C102 (counterexample, after iterating)**: iterating over the shapes takes the start index off the stored
connectivity (C52); what is then written is numbered one too low, and is read as other shapes. -/
theorem C102_iterated_counterexample :
    ∃ m gs c g r, readEsmf esmfFile = .ok m
      ∧ readAll m.start m.brk (List.zip [0, 1, 1, 0] [0, 0, 1, 1]) [] m.conn = .ok (gs, c)
      ∧ writeEsmf esmfFile { m with conn := c } true true = .ok g ∧ g.flat = [0, 1, 2, 0, 2, 3] ∧ g.startAttr = some 1
      ∧ readEsmf g = .ok r
      ∧ esmfShapes r [0, 1, 1, 0] [0, 0, 1, 1] = .ok [some [[(0, 1), (0, 0), (1, 0)]], some [[(0, 1), (1, 0), (1, 1)]]] :=
  ⟨_, _, _, _, _, rfl, rfl, rfl, rfl, rfl, rfl, rfl⟩

end Ocgis.Props
