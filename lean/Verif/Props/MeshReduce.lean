import Verif.Proofs.MeshReduce

/-!
# C101: slicing and reducing a mesh keeps the shape of every element
-/

namespace Ocgis.Props
open Ocgis Ocgis.Geomc Ocgis.MeshReduce Ocgis.Spec Ocgis.Proofs.MeshReduce Ocgis.Comm

/-- A mesh of two triangles and a quadrilateral's worth of unused nodes, numbered from 1 as its `start_index` says. -/
def twoTriangles : Mesh String :=
  ⟨["a", "b", "c", "d", "e", "f"], .rows [[2, 6, 3], [3, 6, 5]], false, 1, none, some 1, 0, []⟩

/-- **C101 (reducing, partial)**: the reduced mesh hands out the same shapes as before, element by element, with the
same mask and the same number of nodes in every element, and says from where it is numbered.  Missing: meshes whose start index is known only from the
attribute and differs from the driver's default (`C101_start_attribute_counterexample`), elements with several parts
(`C101_parts_counterexample`), start indices other than 0 and 1 (`C101_other_start_counterexample`) and connectivity
held as an array of arrays (`C101_array_of_arrays_counterexample`). -/
theorem C101_reduce_shapes_partial {α : Type _} (m m' : Mesh α) (h : reduceGlobal m = .ok m')
    (hstart : m.start = 0 ∨ m.start = 1) (hgiven : m.given ≠ none ∨ m.startAttr = m.driverStart)
    (hsingle : SinglePart m.conn m.start m.breakAttr) :
    m'.shapes = m.shapes ∧ m'.mask = m.mask ∧ nodeCounts m'.conn = nodeCounts m.conn ∧ m'.startAttr = m.start := by
  refine ⟨shapes_reduced m m' h hstart hgiven hsingle, ?_, ?_, ?_⟩
  · rw [(reduce_eq m m' h).2]; rfl
  · rw [(reduce_eq m m' h).2]
    show nodeCounts (mapConn _ m.conn) = _
    cases m.conn with
    | rows rs => simp [mapConn, nodeCounts, Function.comp_def]
    | ragged counts flat => rfl
  · rw [(reduce_eq m m' h).2]
    simp only [Mesh.start, Mesh.setConn]
    cases hg : m.given with
    | none =>
      rcases hgiven with e | e
      · exact absurd hg e
      · exact e.symm
    | some s => rfl

/-- **C101 (reducing, the nodes)**: the reduced mesh keeps, in their order and each once, exactly the nodes some
element mentions, and afterwards every node is mentioned. -/
theorem C101_reduce_nodes {α : Type _} (m m' : Mesh α) (h : reduceGlobal m = .ok m')
    (hstart : m.start = 0 ∨ m.start = 1) :
    KeepsUsed m.nodes m.start m.conn m'.nodes ∧ UsesAll m'.nodes m.start m'.conn := by
  obtain ⟨hk, hm⟩ := reduce_eq m m' h
  rw [kept_eq _ hstart] at hk
  refine ⟨⟨npUnique (connValues m.conn), sorted_npUnique _, ?_, hk⟩, ?_⟩
  · intro v
    rw [mem_npUnique, mentions_iff]
  · intro v
    have hc : m'.conn = mapConn (newNumber (connValues m.conn) m.start) m.conn := by rw [hm]; rfl
    rw [mentions_iff, hc, mapConn_values, new_range]
    have := takeInts_length _ _ _ hk
    rw [List.length_map] at this
    rw [this]

/-- **C101 (reducing succeeds)**: with integer connectivity and every number that of a node, the mesh is reduced. -/
theorem C101_reduce_succeeds {α : Type _} (m : Mesh α) (hint : m.objects = false)
    (hstart : m.start = 0 ∨ m.start = 1)
    (hnodes : ∀ v, Mentions m.conn v → m.start ≤ v ∧ v < m.start + m.nodes.length) :
    ∃ m', reduceGlobal m = .ok m' := by
  have hk := takeInts_ok m.nodes ((npUnique (connValues m.conn)).map (· - m.start)) (by
    intro i hi
    rw [List.mem_map] at hi
    obtain ⟨v, hv, rfl⟩ := hi
    have := hnodes v ((mentions_iff _ _).2 ((mem_npUnique _ _).1 hv))
    omega)
  rw [← kept_eq _ hstart] at hk
  rw [reduceGlobal, if_neg (by simp [hint]), reindex_eq]
  simp only [hk]
  exact ⟨_, rfl⟩

/-- **C101 (reducing twice)**: reducing a reduced mesh changes nothing. -/
theorem C101_reduce_twice {α : Type _} (m m' : Mesh α) (h : reduceGlobal m = .ok m')
    (hstart : m.start = 0 ∨ m.start = 1) (hgiven : m.given ≠ none ∨ m.startAttr = m.driverStart) :
    reduceGlobal m' = .ok m' := by
  have hs' : m'.start = m.start := by
    rw [(reduce_eq m m' h).2]
    simp only [Mesh.start, Mesh.setConn]
    cases hg : m.given with
    | none =>
      rcases hgiven with e | e
      · exact absurd hg e
      · exact e.symm
    | some s => rfl
  obtain ⟨_, hall⟩ := C101_reduce_nodes m m' h hstart
  have hvals : ∀ v, v ∈ connValues m'.conn ↔ m'.start ≤ v ∧ v < m'.start + m'.nodes.length := by
    intro v; rw [hs', ← mentions_iff]; exact hall v
  have hobj : ¬ (m'.objects = true ∧ m'.conn.size ≠ 0) := by
    have h1 : m'.objects = m.objects := by rw [(reduce_eq m m' h).2]; rfl
    have h2 : m'.conn.size = m.conn.size := by rw [(reduce_eq m m' h).2]; exact mapConn_size _ _
    rw [h1, h2]
    intro hc
    rw [reduceGlobal, if_pos hc] at h
    split at h <;> cases h
  have hu := sorted_range (npUnique (connValues m'.conn)) m'.start m'.nodes.length (sorted_npUnique _)
    fun w => by rw [mem_npUnique, hvals]
  have hk : takeInts m'.nodes (keptPositions m'.start (npUnique (connValues m'.conn))) = .ok m'.nodes := by
    rw [kept_eq _ (by rw [hs']; exact hstart), hu, List.map_map]
    have : ((fun v : Int => v - m'.start) ∘ fun (k : Nat) => m'.start + (k : Int)) = fun (k : Nat) => (k : Int) := by
      funext k; simp only [Function.comp]; omega
    rw [this]
    exact takeInts_range _
  have hfix := mapConn_fixed (newNumber (connValues m'.conn) m'.start) m'.conn
    fun v hv => new_fixed _ _ _ hvals v hv
  rw [reduceGlobal, if_neg hobj, reindex_eq]
  simp only [hk, reshape_map, hfix]
  rw [(reduce_eq m m' h).2]
  rfl

example : ∃ m', reduceGlobal twoTriangles = .ok m' ∧ m'.nodes = ["b", "c", "e", "f"]
    ∧ m'.conn = .rows [[1, 4, 2], [2, 4, 3]] ∧ m'.startAttr = 1
    ∧ m'.shapes = .ok [some [["b", "f", "c"]], some [["c", "f", "e"]]] := ⟨_, rfl, rfl, by decide, rfl, rfl⟩

example : (twoTriangles.start = 0 ∨ twoTriangles.start = 1)
    ∧ (twoTriangles.given ≠ none ∨ twoTriangles.startAttr = twoTriangles.driverStart)
    ∧ SinglePart twoTriangles.conn twoTriangles.start twoTriangles.breakAttr
    ∧ twoTriangles.objects = false := by
  refine ⟨Or.inr rfl, Or.inl (by decide), ?_, rfl⟩
  intro b hb; cases hb

/-- **C101 (slicing, partial)**: choosing elements of a mesh with one row per element gives their shapes, in the order
chosen.  Missing: the ESMF layout (`C101_slice_flat_counterexample`). -/
theorem C101_slice_partial {α : Type _} (m : Mesh α) (rs : List (List Int)) (hc : m.conn = .rows rs)
    (hmask : m.mask.length = rs.length ∨ m.mask = []) (is : List Nat) (h : ∀ i ∈ is, i < rs.length)
    (gs : List (Option (List (List α)))) (hgs : m.shapes = .ok gs) :
    ∃ chosen, (m.slice is).shapes = .ok chosen ∧ chosen.length = is.length
      ∧ ∀ k i : Nat, is[k]? = some i → chosen[k]? = gs[i]? := by
  rw [slice_rows m rs hc hmask is h]
  rw [shapes_eq, show m.conn.size = rs.length by rw [hc]; rfl] at hgs
  have hget : ∀ i, i < rs.length → ∃ g, gs[i]? = some g
      ∧ shapeOf m.start m.breakAttr m.nodes m.mask m.conn i = .ok g := by
    intro i hi
    exact mapM_get _ _ _ hgs i i (by simp [hi])
  refine ⟨is.map fun i => gs.getD i none, ?_, by simp, ?_⟩
  · apply mapM_ok_map
    intro i hi
    obtain ⟨g, h1, h2⟩ := hget i (h i hi)
    rw [h2, List.getD_eq_getElem?_getD, h1]; rfl
  · intro k i hk
    obtain ⟨g, h1, _⟩ := hget i (h i (List.mem_of_getElem? hk))
    rw [List.getElem?_map, hk, h1]
    simp [h1]

example : (twoTriangles.slice [1]).shapes = .ok [some [["c", "f", "e"]]] := rfl

/-- **C101 (counterexample, start index from the attribute)**: a UGRID file numbered from 1, opened without saying so
again.  The new connectivity is numbered from 1 too, but says it starts at 0: the shapes change, or cannot be made. -/
theorem C101_start_attribute_counterexample :
    let m : Mesh String := ⟨["a", "b", "c", "d"], .rows [[2, 4, 3]], false, 1, none, none, 0, []⟩
    ∃ m', reduceGlobal m = .ok m' ∧ m.shapes = .ok [some [["b", "d", "c"]]] ∧ m'.conn = .rows [[1, 3, 2]]
      ∧ m'.startAttr = 0 ∧ m'.shapes = .error .indexError :=
  ⟨_, rfl, rfl, by decide, rfl, rfl⟩

/-- **C101 (counterexample, start index from the attribute, other way)**: an ESMF file numbered from 0. -/
theorem C101_esmf_zero_counterexample :
    let m : Mesh String := ⟨["a", "b", "c", "d"], .ragged [3] [1, 3, 2], false, 0, none, none, 1, []⟩
    ∃ m', reduceGlobal m = .ok m' ∧ m.shapes = .ok [some [["b", "d", "c"]]]
      ∧ m'.shapes = .ok [some [["d", "c", "b"]]] :=
  ⟨_, rfl, rfl, rfl⟩

/-- **C101 (counterexample, elements with several parts)**: the break value is counted as the first node, and the
attribute saying that it is one is lost: two triangles become one seven-sided figure. -/
theorem C101_parts_counterexample :
    let m : Mesh String := ⟨["a", "b", "c", "d"], .rows [[0, 1, 2, -1, 1, 2, 3]], false, 0, some (-1), none, 0, []⟩
    ∃ m', reduceGlobal m = .ok m' ∧ m.shapes = .ok [some [["a", "b", "c"], ["b", "c", "d"]]]
      ∧ m'.nodes = ["d", "a", "b", "c", "d"] ∧ m'.breakAttr = none
      ∧ m'.shapes = .ok [some [["a", "b", "c", "d", "b", "c", "d"]]] :=
  ⟨_, rfl, rfl, rfl, rfl, rfl⟩

/-- **C101 (counterexample, other start indices)**: only a start index of 1 is taken off before nodes are picked. -/
theorem C101_other_start_counterexample :
    let m : Mesh String := ⟨["a", "b", "c", "d", "e", "f"], .rows [[2, 3, 4]], false, 2, none, some 2, 0, []⟩
    ∃ m', reduceGlobal m = .ok m' ∧ m.shapes = .ok [some [["a", "b", "c"]]]
      ∧ m'.shapes = .ok [some [["c", "d", "e"]]] :=
  ⟨_, rfl, rfl, rfl⟩

/-- **C101 (counterexample, arrays of arrays)**: what `convert_to` returns by default cannot be reduced, whatever it contains. -/
theorem C101_array_of_arrays_counterexample {α : Type _} (m : Mesh α) (h : m.objects = true) (hne : m.conn.size ≠ 0) :
    reduceGlobal m = .error .typeError ∨ reduceGlobal m = .error .valueError := by
  rw [reduceGlobal, if_pos ⟨h, hne⟩]
  split
  · exact Or.inl rfl
  · exact Or.inr rfl

/-- **C101 (counterexample, slicing the ESMF layout)**: the counts are sliced, the flat connectivity is not, so the
second element comes out with the nodes of the first. -/
theorem C101_slice_flat_counterexample :
    let m : Mesh String := ⟨["a", "b", "c", "d"], .ragged [3, 3] [1, 2, 3, 2, 3, 4], false, 1, none, none, 1, []⟩
    m.shapes = .ok [some [["a", "b", "c"]], some [["b", "c", "d"]]]
      ∧ (m.slice [1]).shapes = .ok [some [["a", "b", "c"]]] :=
  ⟨rfl, rfl⟩

end Ocgis.Props
