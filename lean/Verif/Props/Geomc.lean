import Verif.Proofs.Geomc

namespace Ocgis.Props
open Ocgis Ocgis.Geomc

/-- **C51 (multipart)**: splitting a node list at the break value and joining the parts with the break value
gives the list back, there is one part more than there are break values, and no part contains one. -/
theorem C51_multipart_lossless (arr : List Int) (mbv : Int) :
    List.intercalate [mbv] (iterMultipart arr mbv) = arr
    ∧ (iterMultipart arr mbv).length = arr.count mbv + 1
    ∧ ∀ p ∈ iterMultipart arr mbv, mbv ∉ p := by
  induction arr with
  | nil => simp [iterMultipart_nil, List.intercalate]
  | cons a as ih =>
    obtain ⟨h1, h2, h3⟩ := ih
    by_cases h : a = mbv
    · subst h
      rw [iterMultipart_break, intercalate_cons _ _ _ (iterMultipart_ne_nil _ _), h1]
      refine ⟨by simp, by simp [h2], ?_⟩
      intro p hp
      rcases List.mem_cons.1 hp with rfl | hp
      · simp
      · exact h3 p hp
    · rw [iterMultipart_keep _ _ _ h, intercalate_consHead _ _ _ (iterMultipart_ne_nil _ _), h1]
      refine ⟨rfl, by rw [consHead_length, h2, List.count_cons_of_ne h], ?_⟩
      cases hp : iterMultipart as mbv with
      | nil => simp [consHead]
      | cons p ps =>
        rw [hp] at h3
        intro q hq
        simp only [consHead, List.mem_cons] at hq
        rcases hq with rfl | hq
        · simp only [List.mem_cons, not_or]; exact ⟨fun e => h e.symm, h3 p (by simp)⟩
        · exact h3 q (by simp [hq])

example : iterMultipart [4, 5, 6, -8, 7, 8, 9, -8, 1, 2, 3] (-8) = [[4, 5, 6], [7, 8, 9], [1, 2, 3]] := by decide

/-- **C51 (multipart, other direction)**: joining parts with the break value and splitting again gives the
parts back, whatever they are, as long as none of them contains the break value. -/
theorem C51_join_then_split (mbv : Int) (parts : List (List Int)) (hne : parts ≠ [])
    (h : ∀ p ∈ parts, mbv ∉ p) : iterMultipart (List.intercalate [mbv] parts) mbv = parts :=
  iterMultipart_intercalate mbv parts hne h

example : ([[0, 1, 2], [3, 4, 5]] : List (List Int)) ≠ [] ∧ ∀ p ∈ ([[0, 1, 2], [3, 4, 5]] : List (List Int)), (-8 : Int) ∉ p := by
  decide

/-- **C51 (ragged)**: in the ESMF layout, when the counts add up to the length of the flat connectivity, every
element gets as many nodes as its count says, they are the consecutive ones starting after those of the
elements before it, and all elements together, in order, are the connectivity. -/
theorem C51_ragged_lossless (counts : List Nat) (flat : List Int) (h : counts.sum = flat.length) :
    ((List.range counts.length).map (raggedNodes counts flat)).flatten = flat
    ∧ ∀ (idx n : Nat), counts[idx]? = some n →
        (raggedNodes counts flat idx).length = n
        ∧ ∀ k < n, (raggedNodes counts flat idx)[k]? = flat[(counts.take idx).sum + k]? := by
  refine ⟨ragged_flatten counts flat h, fun idx n hn => ?_⟩
  rw [raggedNodes_eq _ _ _ _ hn]
  have h1 := sum_take_le counts (idx + 1)
  rw [sum_take_succ _ _ _ hn] at h1
  refine ⟨by rw [List.length_take, List.length_drop]; omega, fun k hk => ?_⟩
  rw [List.getElem?_take_of_lt hk, List.getElem?_drop]

example : ([3, 4, 3] : List Nat).sum = ([0, 1, 2, 2, 1, 3, 4, 4, 3, 5] : List Int).length
    ∧ raggedNodes [3, 4, 3] [0, 1, 2, 2, 1, 3, 4, 4, 3, 5] 1 = [2, 1, 3, 4] := by decide

/-! ### Reading leaves the connectivity unchanged -/

/-- **C52 (partial)**: for connectivity stored one row per element (UGRID) with any start index, and for the
ESMF layout with start index zero, any number of iterations over the geometries of a grid that can be read
once all succeed, all yield what the first one yielded, and leave the connectivity as it was.  Missing: the
ESMF layout with a positive start index, where it is false (`C52_esmf_counterexample`). -/
theorem C52_reading_is_pure_partial {α : Type _} (si : Int) (mbv : Option Int) (nodes : List α)
    (mask : List Bool) (c c' : Conn) (gs : List (Option (List (List α))))
    (hs : (∃ rs, c = .rows rs) ∨ si ≤ 0) (hr : readAll si mbv nodes mask c = .ok (gs, c')) (k : Nat) :
    c' = c ∧ readTimes si mbv nodes mask k c = .ok (List.replicate k gs, c) := by
  have hst : Stable si c := by
    rcases hs with ⟨rs, rfl⟩ | h
    · exact trivial
    · cases c with
      | rows _ => exact trivial
      | ragged _ _ => exact h
  have hc : c' = c := readLoop_stable _ _ _ _ _ _ _ _ hst hr
  subst hc
  refine ⟨rfl, ?_⟩
  induction k with
  | zero => rfl
  | succ k ih => rw [readTimes]; simp only [hr, ih]; rfl

example : (∃ rs, Conn.rows [[1, 2, 3], [2, 3, 4]] = .rows rs)
    ∧ readAll 1 none ["a", "b", "c", "d"] [] (.rows [[1, 2, 3], [2, 3, 4]])
      = .ok ([some [["a", "b", "c"]], some [["b", "c", "d"]]], .rows [[1, 2, 3], [2, 3, 4]]) :=
  ⟨⟨_, rfl⟩, by decide⟩

/-- **C52 (partial, incomplete iteration)**: the same when the consumer draws any elements in any order and
stops wherever it likes. -/
theorem C52_partial_iteration_partial {α : Type _} (si : Int) (mbv : Option Int) (nodes : List α)
    (mask : List Bool) (c c' : Conn) (idxs : List Nat) (gs : List (Option (List (List α))))
    (hs : (∃ rs, c = .rows rs) ∨ si ≤ 0) (hr : readLoop si mbv nodes mask idxs c = .ok (gs, c')) : c' = c := by
  apply readLoop_stable _ _ _ _ _ _ _ _ _ hr
  rcases hs with ⟨rs, rfl⟩ | h
  · exact trivial
  · cases c with
    | rows _ => exact trivial
    | ragged _ _ => exact h

example : readLoop 1 none ["a", "b", "c", "d"] [true, false] [1, 0] (.rows [[1, 2, 3], [2, 3, 4]])
    = .ok ([some [["b", "c", "d"]], none], .rows [[1, 2, 3], [2, 3, 4]]) := by decide

/-- **C52 (elements, partial)**: for the same layouts, an iteration yields exactly one entry for each element asked for, in
order: nothing for a masked element, and for any other element the geometry it has when it is read on its own. -/
theorem C52_each_element_partial {α : Type _} (si : Int) (mbv : Option Int) (nodes : List α)
    (mask : List Bool) (c c' : Conn) (idxs : List Nat) (gs : List (Option (List (List α))))
    (hs : (∃ rs, c = .rows rs) ∨ si ≤ 0) (hr : readLoop si mbv nodes mask idxs c = .ok (gs, c')) :
    gs.length = idxs.length ∧ ∀ (i n : Nat), idxs[i]? = some n →
      (mask[n]? = some true → gs[i]? = some none) ∧
      (mask[n]? ≠ some true → ∃ g, gs[i]? = some (some g) ∧ readElement si mbv nodes c n = .ok (g, c)) := by
  have hst : Stable si c := by
    rcases hs with ⟨rs, rfl⟩ | h
    · exact trivial
    · cases c with
      | rows _ => exact trivial
      | ragged _ _ => exact h
  induction idxs generalizing gs c' with
  | nil =>
    simp only [readLoop, Except.ok.injEq, Prod.mk.injEq] at hr
    rw [← hr.1]; simp
  | cons k ks ih =>
    have hm : mask.getD k false = true ↔ mask[k]? = some true := by
      rw [List.getD_eq_getElem?_getD]
      cases mask[k]? <;> simp
    rw [readLoop] at hr
    split at hr
    · next hk =>
      split at hr
      · simp at hr
      · next heq =>
        simp only [Except.ok.injEq, Prod.mk.injEq] at hr
        obtain ⟨i1, i2⟩ := ih _ _ heq
        rw [← hr.1]
        refine ⟨by simp [i1], fun i n hn => ?_⟩
        cases i with
        | zero =>
          simp only [List.getElem?_cons_zero, Option.some.injEq] at hn
          subst hn
          exact ⟨fun _ => rfl, fun h => absurd (hm.1 hk) h⟩
        | succ i => simpa using i2 i n (by simpa using hn)
    · next hk =>
      split at hr
      · simp at hr
      · next hel =>
        have hcc := readElement_stable _ _ _ _ _ _ _ hst hel
        subst hcc
        split at hr
        · simp at hr
        · next heq =>
          simp only [Except.ok.injEq, Prod.mk.injEq] at hr
          obtain ⟨i1, i2⟩ := ih _ _ heq
          rw [← hr.1]
          refine ⟨by simp [i1], fun i n hn => ?_⟩
          cases i with
          | zero =>
            simp only [List.getElem?_cons_zero, Option.some.injEq] at hn
            subst hn
            exact ⟨fun h => absurd (hm.2 h) hk, fun _ => ⟨_, rfl, hel⟩⟩
          | succ i => simpa using i2 i n (by simpa using hn)

example : readLoop 1 none ["a", "b", "c", "d"] [true, false] [1, 0, 1] (.rows [[1, 2, 3], [2, 3, 4]])
    = .ok ([some [["b", "c", "d"]], none, some [["b", "c", "d"]]], .rows [[1, 2, 3], [2, 3, 4]]) := by decide

/-- **C52 (counterexample)**: in the ESMF layout with start index one (what ESMF files have), the first
iteration over two triangles yields them and stores the shifted numbers, the second iteration yields other
geometries, and the third and fourth again others. -/
theorem C52_esmf_counterexample :
    readTimes 1 none ["a", "b", "c", "d"] [] 2 (.ragged [3, 3] [1, 2, 3, 2, 3, 4])
      = .ok ([[some [["a", "b", "c"]], some [["b", "c", "d"]]], [some [["d", "a", "b"]], some [["a", "b", "c"]]]],
          .ragged [3, 3] [-1, 0, 1, 0, 1, 2]) := by rfl

/-- **C52 (counterexample, in general)**: in the ESMF layout with a positive start index every complete
iteration subtracts the start index from the whole stored connectivity, so unless the connectivity is empty
it is changed. -/
theorem C52_esmf_shift_counterexample {α : Type _} (si : Int) (hsi : 0 < si) (mbv : Option Int)
    (nodes : List α) (counts : List Nat) (flat : List Int) (h : counts.sum = flat.length)
    (gs : List (Option (List (List α)))) (c' : Conn)
    (hr : readAll si mbv nodes [] (.ragged counts flat) = .ok (gs, c')) :
    c' = .ragged counts (flat.map (· - si)) ∧ (flat ≠ [] → c' ≠ .ragged counts flat) := by
  have h0 : shiftedUpTo si 0 flat = flat := by simp [shiftedUpTo]
  have hc := read_shifts si hsi mbv nodes counts flat h counts.length 0 (by omega) gs c' (by
    rw [List.take_zero, List.sum_nil, h0, ← List.range_eq_range']; exact hr)
  have hfull : shiftedUpTo si (counts.take (0 + counts.length)).sum flat = flat.map (· - si) := by
    rw [Nat.zero_add, List.take_length, h, shiftedUpTo, List.take_length, List.drop_length]; simp
  rw [hfull] at hc
  refine ⟨hc, fun hne hcc => ?_⟩
  rw [hc] at hcc
  simp only [Conn.ragged.injEq, true_and] at hcc
  cases flat with
  | nil => exact hne rfl
  | cons a as => simp only [List.map_cons, List.cons.injEq] at hcc; omega

example : ([3, 3] : List Nat).sum = ([1, 2, 3, 2, 3, 4] : List Int).length
    ∧ readAll 1 none ["a", "b", "c", "d"] [] (.ragged [3, 3] [1, 2, 3, 2, 3, 4])
      = .ok ([some [["a", "b", "c"]], some [["b", "c", "d"]]], .ragged [3, 3] [0, 1, 2, 1, 2, 3]) := by decide

/-! ### Writing geometries and reading them back -/

/-- **C63 (partial)**: polygons converted to coordinates and connectivity and read back are the same polygons
in the same order, packed or not: single-part polygons for every start index, multi-part polygons for start
index zero.  Packed conversion stores every node once.  Missing: multi-part polygons with a positive start
index, where it is false (`C63_multipart_start_index_counterexample`). -/
theorem C63_write_then_read_partial {α : Type _} [DecidableEq α] (pack : Bool) (si mbv : Int) (multi : Bool)
    (gs : List (List (List α))) (hsi : 0 ≤ si) (hmbv : mbv < 0) (hm : multi = true → si = 0)
    (hgs : ∀ g ∈ gs, if multi then g ≠ [] else g.length = 1) :
    readAll si (if multi then some mbv else none) (toCoords pack si mbv gs).1 []
        (.rows (toCoords pack si mbv gs).2)
      = .ok (gs.map some, .rows (toCoords pack si mbv gs).2)
    ∧ (pack = true → (toCoords pack si mbv gs).1.Nodup) := by
  obtain ⟨h1, _, h3⟩ := toCoords_spec pack si mbv gs
  refine ⟨?_, h3⟩
  have hlen := RowsOf_length _ _ _ _ _ h1
  rw [readAll, readLoop_rows _ _ _ _ (fun i => gs.getD i [])]
  · rw [Conn.size, hlen, range_map_getD]
  · intro i hi
    rw [List.mem_range, Conn.size] at hi
    obtain ⟨vss, a, b, c⟩ := RowsOf_get _ _ _ _ _ h1 i hi
    refine readElement_rows si mbv multi hsi hmbv hm _ _ i vss _ a b ?_
    have : gs.getD i [] ∈ gs := by
      rw [List.getD_eq_getElem?_getD, List.getElem?_eq_getElem c]; exact List.getElem_mem c
    exact hgs _ this

example : toCoords true 0 (-8) [[["a", "b", "c"], ["c", "b", "d"]], [["d", "e", "f"]]]
    = (["a", "b", "c", "d", "e", "f"], [[0, 1, 2, -8, 2, 1, 3], [3, 4, 5]]) := by decide
example : ∀ g ∈ [[["a", "b", "c"], ["c", "b", "d"]], [["d", "e", "f"]]], if true then g ≠ [] else g.length = 1 := by
  decide

/-- **C63 (counterexample)**: a polygon of two triangles written with start index one is read back as one ring:
the break value was shifted together with the numbers, is not recognised any more, and the shifted value
picks a node from the end. -/
theorem C63_multipart_start_index_counterexample :
    toCoords true 1 (-3) [[["a", "b", "c"], ["b", "d", "e"]]] = (["a", "b", "c", "d", "e"], [[1, 2, 3, -3, 2, 4, 5]])
    ∧ readAll 1 (some (-3)) ["a", "b", "c", "d", "e"] [] (.rows [[1, 2, 3, -3, 2, 4, 5]])
      = .ok ([some [["a", "b", "c", "b", "b", "d", "e"]]], .rows [[1, 2, 3, -3, 2, 4, 5]]) := by
  constructor
  · decide
  · rfl

/-! ### Export to the ESMF layout on several ranks -/

/-- **C64 (partial)**: polygons spread over any number of ranks, converted on each rank and exported to the ESMF
layout, are read back from the exported connectivity and the ranks' nodes laid end to end as the polygons of
the first rank, then of the second, and so on: the numbers of every rank are shifted to where its nodes end
up.  Missing: a start index other than zero (`C64_start_index_counterexample`) and ranks without polygons,
on which the export raises (`C64_empty_rank_counterexample`). -/
theorem C64_esmf_export_partial {α : Type _} [DecidableEq α] (pack multi : Bool) (mbv : Int) (hmbv : mbv < 0)
    (ranks : List (List (List (List α)))) (hranks : ∀ gs ∈ ranks, gs ≠ [])
    (hgs : ∀ gs ∈ ranks, ∀ g ∈ gs, (if multi then g ≠ [] else g.length = 1) ∧ ∀ ring ∈ g, ring ≠ []) :
    ∃ counts flat,
      toEsmf (if multi then some mbv else none) ((ranks.map (toCoords pack 0 mbv)).map Prod.snd) = .ok (counts, flat)
      ∧ readAll 0 (if multi then some mbv else none) ((ranks.map (toCoords pack 0 mbv)).map Prod.fst).flatten []
          (.ragged counts flat) = .ok (ranks.flatten.map some, .ragged counts flat) := by
  have hne : ∀ gs ∈ ranks, ∀ g ∈ gs, g ≠ [] ∧ ∀ ring ∈ g, ring ≠ [] := by
    intro gs h g hg
    have := hgs gs h g hg
    refine ⟨?_, this.2⟩
    cases multi with
    | true => simpa using this.1
    | false =>
      have h1 := this.1
      simp only [Bool.false_eq_true, if_false] at h1
      intro e; subst e; simp at h1
  have hrows := allRows_spec pack multi mbv hmbv ranks [] (fun gs h g hg => (hgs gs h g hg).1)
  simp only [List.nil_append, List.length_nil, Int.natCast_zero] at hrows
  obtain ⟨hz1, hz2⟩ := zipWith_chain (breakOf multi mbv) (ranks.map (toCoords pack 0 mbv)) 0
  have hadj : adjustments ((ranks.map (toCoords pack 0 mbv)).map Prod.snd)
      = .ok (adjustChain ((ranks.map (toCoords pack 0 mbv)).map fun w => (w.1.length : Int) - 1) 0) := by
    rw [adjustments]
    split
    · next hl =>
      match ranks, hl with
      | [], _ => rfl
      | [gs], _ => rfl
    · rw [optMapM_some _ maxIndex (fun rows => (maxIndex rows).getD 0)]
      · simp only [Except.ok.injEq]
        congr 1
        rw [List.map_map, List.map_map]
        simp only [List.map_map]
        apply List.map_congr_left
        intro gs hgs'
        simp [maxIndex_toCoords pack mbv hmbv gs (hranks gs hgs') (hne gs hgs')]
      · intro rows hr
        simp only [List.map_map, List.mem_map, Function.comp] at hr
        obtain ⟨gs, hgs', rfl⟩ := hr
        rw [maxIndex_toCoords pack mbv hmbv gs (hranks gs hgs') (hne gs hgs')]; rfl
  have hE : toEsmf (breakOf multi mbv) ((ranks.map (toCoords pack 0 mbv)).map Prod.snd)
      = .ok ((allRows (breakOf multi mbv) (ranks.map (toCoords pack 0 mbv)) 0).map List.length,
          (allRows (breakOf multi mbv) (ranks.map (toCoords pack 0 mbv)) 0).flatten) := by
    rw [toEsmf, hadj]; simp only [hz1, hz2]
  refine ⟨_, _, hE, ?_⟩
  generalize allRows (breakOf multi mbv) (ranks.map (toCoords pack 0 mbv)) 0 = rows at hrows
  generalize ((ranks.map (toCoords pack 0 mbv)).map Prod.fst).flatten = nodes at hrows
  have hlen := RowsOf_length _ _ _ _ _ hrows
  rw [readAll, readLoop_rows _ _ _ _ (fun i => ranks.flatten.getD i [])]
  · rw [Conn.size, List.length_map, hlen, range_map_getD]
  · intro i hi
    rw [List.mem_range, Conn.size, List.length_map] at hi
    obtain ⟨vss, a, b, c⟩ := RowsOf_get _ _ _ _ _ hrows i hi
    apply readElement_ragged _ _ _ _ _ hi
    refine readElement_rows 0 mbv multi (by omega) hmbv (fun _ => rfl) _ _ i vss _ a b ?_
    have : ranks.flatten.getD i [] ∈ ranks.flatten := by
      rw [List.getD_eq_getElem?_getD, List.getElem?_eq_getElem c]; exact List.getElem_mem c
    obtain ⟨gs, h1, h2⟩ := List.mem_flatten.1 this
    exact (hgs gs h1 _ h2).1

example : toEsmf (some (-8)) [(toCoords true 0 (-8) [[["a", "b", "c"], ["c", "b", "d"]]]).2,
      (toCoords true 0 (-8) [[["p", "q", "r"]], [["q", "r", "s"]]]).2]
    = .ok ([7, 3, 3], [0, 1, 2, -8, 2, 1, 3, 4, 5, 6, 5, 6, 7]) := by decide

/-- **C64 (counterexample, start index)**: with start index one on two ranks the second rank's triangle
"p q r" is exported with numbers 5 6 7 although its nodes are number 4 5 6 of the joined nodes: the numbers point one
node too far and the last one at nothing, so reading the export raises. -/
theorem C64_start_index_counterexample :
    (toCoords true 1 (-8) [[["a", "b", "c"]]]).2 = [[1, 2, 3]]
    ∧ toEsmf none [[[1, 2, 3]], [[1, 2, 3]]] = .ok ([3, 3], [1, 2, 3, 5, 6, 7])
    ∧ readAll 1 none ["a", "b", "c", "p", "q", "r"] [] (.ragged [3, 3] [1, 2, 3, 5, 6, 7]) = .error .indexError := by
  refine ⟨by decide, by decide, by rfl⟩

/-- **C64 (counterexample, empty rank)**: a rank without polygons makes the export raise. -/
theorem C64_empty_rank_counterexample (mbv : Option Int) (e : List (List Int)) :
    toEsmf mbv [e, []] = .error .valueError := by
  rw [toEsmf, adjustments]
  simp only [List.length_cons, List.length_nil, Nat.reduceAdd, Nat.reduceLeDiff, if_false]
  cases h : maxIndex e <;> simp [List.mapM_cons, maxIndex]

end Ocgis.Props
