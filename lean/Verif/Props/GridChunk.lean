import Verif.Proofs.GridChunk
/-!
# C49, C50, C62: the grid chunker
-/
namespace Ocgis.Props
open Ocgis.GridChunk Ocgis.Spec Ocgis.Mpi Ocgis.Tile

/-! ## C62 -/

/-- C62 (no dimension of length one is split): the chunks of the destination are as many as asked for, lie inside the grid, and each
cell of the grid is in exactly one of them. -/
theorem C62_chunks_tile_partial (ny nx sy sx : Nat) (hsy : 0 < sy) (hsx : 0 < sx) (hy : sy = 1 ∨ 2 ≤ ny) (hx : sx = 1 ∨ 2 ≤ nx)
    (y x : Nat) (hyn : y < ny) (hxn : x < nx) :
    ∃ ss, dstSlices ny nx sy sx none = .ok ss ∧ ss.length = sy * sx ∧ (∀ b ∈ ss, b.1.2 ≤ ny ∧ b.2.2 ≤ nx) ∧
      ∃ k b, ss[k]? = some b ∧ InChunk b y x ∧ ∀ (k' : Nat) (b' : Bounds), ss[k']? = some b' → InChunk b' y x → k' = k := by
  obtain ⟨ys, hys, hly, hby, ry, sy', gy1, gy2, gy3, gy4⟩ := dim_slices_cover ny sy hsy hy y hyn
  obtain ⟨xs, hxs, hlx, hbx, rx, sx', gx1, gx2, gx3, gx4⟩ := dim_slices_cover nx sx hsx hx x hxn
  have hprod : (ys.flatMap fun y => xs.map fun x => (y, x)) =
      (List.range sy).flatMap fun r => (List.range sx).map fun c => (ys.getD r (0, 0), xs.getD c (0, 0)) := by
    have e1 := eq_map_getD ys sy (0, 0) hly
    have e2 := eq_map_getD xs sx (0, 0) hlx
    refine Eq.trans (b := ((List.range sy).map fun r => ys.getD r (0, 0)).flatMap fun y => ((List.range sx).map fun r => xs.getD r (0, 0)).map fun x => (y, x)) (by rw [← e1, ← e2]) ?_
    rw [List.flatMap_map]
    congr 1
    funext r
    rw [List.map_map]
    rfl
  have hget : ∀ (k : Nat) (b : Bounds), (ys.flatMap fun y => xs.map fun x => (y, x))[k]? = some b →
      ∃ r c, k = r * sx + c ∧ r < sy ∧ c < sx ∧ ys[r]? = some b.1 ∧ xs[c]? = some b.2 := by
    intro k b hb
    have hlt := (List.getElem?_eq_some_iff.1 hb).1
    rw [hprod, rowMajor_length] at hlt
    rw [hprod, flatMap_rowMajor _ _ _ hsx, List.getElem?_map, List.getElem?_range hlt] at hb
    simp only [Option.map_some, Option.some.injEq] at hb
    have h1 : k / sx < sy := Nat.div_lt_of_lt_mul (by rw [Nat.mul_comm]; exact hlt)
    have h2 : k % sx < sx := Nat.mod_lt _ hsx
    refine ⟨k / sx, k % sx, ?_, h1, h2, ?_, ?_⟩
    · rw [Nat.mul_comm]; exact (Nat.div_add_mod k sx).symm
    · rw [← hb]; exact getElem?_of_getD ys _ _ (by omega)
    · rw [← hb]; exact getElem?_of_getD xs _ _ (by omega)
  refine ⟨ys.flatMap fun y => xs.map fun x => (y, x), by rw [dstSlices, hys, hxs]; simp only [bind, Except.bind, pure, Except.pure, yieldFrom_none], ?_, ?_, ?_⟩
  · rw [hprod, rowMajor_length]
  · intro b hb
    rw [List.mem_flatMap] at hb
    obtain ⟨a, ha, hb⟩ := hb
    obtain ⟨c, hc, rfl⟩ := List.mem_map.1 hb
    exact ⟨(hby a ha).2, (hbx c hc).2⟩
  · have hry : ry < sy := by have := (List.getElem?_eq_some_iff.1 gy1).1; omega
    have hrx : rx < sx := by have := (List.getElem?_eq_some_iff.1 gx1).1; omega
    refine ⟨ry * sx + rx, (sy', sx'), ?_, ⟨gy2, gy3, gx2, gx3⟩, ?_⟩
    · rw [hprod, rowMajor_get _ _ _ _ _ hry hrx, List.getD_eq_getElem?_getD, List.getD_eq_getElem?_getD, gy1, gx1]; rfl
    · intro k' b' hb' hin
      obtain ⟨r, c, rfl, hr, hc, h1, h2⟩ := hget k' b' hb'
      rw [gy4 r b'.1 h1 hin.1 hin.2.1, gx4 c b'.2 h2 hin.2.2.1 hin.2.2.2]

example : dstSlices 5 4 2 2 none = .ok [((0, 3), (0, 2)), ((0, 3), (2, 4)), ((3, 5), (0, 2)), ((3, 5), (2, 4))] := by decide

/-- C62: asking for one chunk gives the chunk with that number, and nothing for a number out of range. -/
theorem C62_one_chunk (ny nx sy sx : Nat) (ss : List Bounds) (h : dstSlices ny nx sy sx none = .ok ss) (k : Int) :
    dstSlices ny nx sy sx (some k) = .ok (if 0 ≤ k then (ss[k.toNat]?).toList else []) := by
  unfold dstSlices at h ⊢
  cases hy : chunkDimSlices ny sy with
  | error e => rw [hy] at h; cases h
  | ok ys =>
    cases hx : chunkDimSlices nx sx with
    | error e => rw [hy, hx] at h; cases h
    | ok xs =>
      rw [hy, hx] at h
      simp only [bind, Except.bind, pure, Except.pure, yieldFrom_none, Except.ok.injEq] at h ⊢
      subst h
      rw [yieldFrom_some]
      simp

example : dstSlices 5 4 2 2 (some 2) = .ok [((3, 5), (0, 2))] ∧ dstSlices 5 4 2 2 (some (-1)) = .ok [] := by decide

/-- C62 is false if a dimension of length one is split: no chunk contains any cell. -/
theorem C62_length_one_counterexample : dstSlices 1 4 2 2 none = .ok [((0, 0), (0, 2)), ((0, 0), (2, 4)), ((0, 0), (0, 2)), ((0, 0), (2, 4))] := by
  decide

/-- C62: fewer than two cells per chunk are never given: the chunks left over are empty. -/
theorem C62_empty_chunks_counterexample : chunkDimSlices 4 4 = .ok [(0, 2), (2, 4), (0, 0), (0, 0)] := by decide

/-! ## C49 -/

/-- C49: merging gives all the weights of the files that are present, in order, each factor unchanged and each row and column number
replaced by the global number of the cell it meant in its chunk; that number is determined. -/
theorem C49_merged_weights (strict : Bool) (src dst : ChunkMap) (hsrc : ChunksInside src) (hdst : ChunksInside dst)
    (files : List (Option WeightFile)) (hs : strict = false ∨ none ∉ files)
    (hr : ∀ (ii : Nat) f, files[ii]? = some (some f) → SameLength f ∧ (∀ v ∈ f.row, ∃ g, Means dst ii v g) ∧ (∀ v ∈ f.col, ∃ g, Means src ii v g) ∧
      (f.s = [] → (∃ o, chunkIndices dst ii = .ok o) ∧ ∃ o, chunkIndices src ii = .ok o)) :
    ∃ (rows cols : List Int) (ss : List Rat), merge 1 strict src dst files = .ok ⟨rows.map some, cols.map some, ss.map some⟩ ∧
      rows.length = (allWeights files).length ∧ cols.length = (allWeights files).length ∧ ss.length = (allWeights files).length ∧
      (∀ (k : Nat) ii r c s, (allWeights files)[k]? = some (ii, r, c, s) →
        (∃ r', rows[k]? = some r' ∧ Means dst ii r r' ∧ ∀ g, Means dst ii r g → g = r') ∧
        (∃ c', cols[k]? = some c' ∧ Means src ii c c' ∧ ∀ g, Means src ii c g → g = c') ∧ ss[k]? = some s) := by
  have hread : Readable src dst files 0 := by
    intro k f hk
    rw [Nat.zero_add]
    exact hr k f hk
  have hsl : ∀ f, some f ∈ files → SameLength f := by
    intro f hf
    obtain ⟨k, hk⟩ := List.getElem?_of_mem hf
    exact (hr k f hk).1
  obtain ⟨rows, cols, ss, g1, g2⟩ := transfer_spec strict src dst hsrc hdst files 0 [] [] [] hs hread rfl rfl
  refine ⟨rows, cols, ss, ?_, g2.lenRow, g2.lenCol, g2.lenS, ?_⟩
  · rw [merge, totalSize_eq strict files hs hsl 0]
    simpa [bind, Except.bind] using g1
  · intro k ii r c s hk
    obtain ⟨⟨r', a1, a2⟩, ⟨c', b1, b2⟩, e⟩ := g2.each k ii r c s hk
    exact ⟨⟨r', a1, a2, fun g hg => means_unique dst hdst ii r g r' hg a2⟩, ⟨c', b1, b2, fun g hg => means_unique src hsrc ii c g c' hg b2⟩, e⟩

example : merge 1 false (.structured (2, 4) [((0, 2), (0, 3)), ((0, 2), (1, 4)), ((0, 2), (1, 4))])
    (.structured (2, 4) [((0, 2), (0, 2)), ((0, 1), (2, 4)), ((1, 2), (2, 4))])
    [some ⟨[4, 1], [5, 2], [1, 2]⟩, none, some ⟨[2], [6], [3]⟩] = .ok ⟨[some 6, some 1, some 8], [some 6, some 2, some 8], [some 1, some 2, some 3]⟩ := by
  decide +kernel

/-- C49: if a file is missing and that is not allowed, an exception; merging in parallel is refused. -/
theorem C49_refused (src dst : ChunkMap) (files : List (Option WeightFile)) :
    (none ∈ files → merge 1 true src dst files = .error .ioError) ∧
    (∀ nproc strict, 1 < nproc → merge nproc strict src dst files = .error .valueError) := by
  refine ⟨?_, ?_⟩
  · intro h
    have key : totalSize true files = .error .ioError := by
      induction files with
      | nil => simp at h
      | cons f files ih =>
        cases f with
        | none => rfl
        | some f =>
          rw [totalSize, ih (by simpa using h)]
          rfl
    rw [merge, key]
    rfl
  · intro nproc strict hn
    rw [merge, if_pos (by omega)]
    rfl

example : merge 1 true (.unstructured [[1], [2]]) (.unstructured [[1], [2]]) [some ⟨[1], [1], [1]⟩, none] = .error .ioError := by decide +kernel

/-! ## C50 -/

/-- C50 (two dimensions): if each chunk holds, at each of its cells, what was computed for the cell, then after inserting all chunks the
destination holds it at each cell that is in some chunk, and elsewhere what it held before. -/
theorem C50_insert {β : Type _} (ny nx : Nat) (f : Nat → Nat → β) (chunks : List (Bounds × List (List β))) (master : List (List β))
    (hm : HasShape master ny nx)
    (hc : ∀ c ∈ chunks, c.1.1.1 ≤ c.1.1.2 ∧ c.1.1.2 ≤ ny ∧ c.1.2.1 ≤ c.1.2.2 ∧ c.1.2.2 ≤ nx ∧ HasShape c.2 (c.1.1.2 - c.1.1.1) (c.1.2.2 - c.1.2.1))
    (hf : ∀ c ∈ chunks, ∀ y x, InChunk c.1 y x → cellAt c.2 (y - c.1.1.1) (x - c.1.2.1) = some (f y x)) :
    ∃ out, insert2 chunks master = .ok out ∧ HasShape out ny nx ∧ ∀ y x,
      ((∃ c ∈ chunks, InChunk c.1 y x) → cellAt out y x = some (f y x)) ∧ ((¬ ∃ c ∈ chunks, InChunk c.1 y x) → cellAt out y x = cellAt master y x) := by
  obtain ⟨out, h1, h2, h3⟩ := insert2_spec ny nx chunks master hm hc
  refine ⟨out, h1, h2, fun y x => ⟨?_, ?_⟩⟩
  · intro hex
    exact (h3 y x).2 _ hex (fun c hcm hin => hf c hcm y x hin)
  · intro hno
    exact (h3 y x).1 (fun c hcm hin => hno ⟨c, hcm, hin⟩)

/-- C50 (the chunks of the chunker, no dimension of length one split): the whole destination is rebuilt. -/
theorem C50_whole_partial {β : Type _} (ny nx sy sx : Nat) (hny : 0 < ny) (hnx : 0 < nx) (hsy : 0 < sy) (hsx : 0 < sx) (hy : sy = 1 ∨ 2 ≤ ny) (hx : sx = 1 ∨ 2 ≤ nx)
    (f : Nat → Nat → β) (master : List (List β)) (hm : HasShape master ny nx) :
    ∃ ss, dstSlices ny nx sy sx none = .ok ss ∧ ∀ values : List (List (List β)), values.length = ss.length →
      (∀ (k : Nat) (b : Bounds) (v : List (List β)), ss[k]? = some b → values[k]? = some v →
        HasShape v (b.1.2 - b.1.1) (b.2.2 - b.2.1) ∧ ∀ y x, InChunk b y x → cellAt v (y - b.1.1) (x - b.2.1) = some (f y x)) →
      ∃ out, insert2 (ss.zip values) master = .ok out ∧ HasShape out ny nx ∧ ∀ y x, y < ny → x < nx → cellAt out y x = some (f y x) := by
  obtain ⟨ss, hss, hlen, hin, _⟩ := C62_chunks_tile_partial ny nx sy sx hsy hsx hy hx 0 0 hny hnx
  refine ⟨ss, hss, ?_⟩
  intro values hv hval
  have hle : ∀ b ∈ ss, b.1.1 ≤ b.1.2 ∧ b.2.1 ≤ b.2.2 := by
    intro b hb
    obtain ⟨ys, hys, _, hby, _⟩ := dim_slices_cover ny sy hsy hy 0 hny
    obtain ⟨xs, hxs, _, hbx, _⟩ := dim_slices_cover nx sx hsx hx 0 hnx
    rw [dstSlices, hys, hxs] at hss
    simp only [bind, Except.bind, pure, Except.pure, yieldFrom_none, Except.ok.injEq] at hss
    rw [← hss, List.mem_flatMap] at hb
    obtain ⟨a, ha, hb⟩ := hb
    obtain ⟨c, hc, rfl⟩ := List.mem_map.1 hb
    exact ⟨(hby a ha).1, (hbx c hc).1⟩
  obtain ⟨out, h1, h2, h3⟩ := C50_insert ny nx f (ss.zip values) master hm
    (by
      intro c hc
      obtain ⟨k, hk⟩ := List.getElem?_of_mem hc
      rw [List.getElem?_zip_eq_some] at hk
      have hb := List.mem_of_getElem? hk.1
      exact ⟨(hle c.1 hb).1, (hin c.1 hb).1, (hle c.1 hb).2, (hin c.1 hb).2, (hval k c.1 c.2 hk.1 hk.2).1⟩)
    (by
      intro c hc
      obtain ⟨k, hk⟩ := List.getElem?_of_mem hc
      rw [List.getElem?_zip_eq_some] at hk
      exact (hval k c.1 c.2 hk.1 hk.2).2)
  refine ⟨out, h1, h2, ?_⟩
  intro y x hyl hxl
  apply (h3 y x).1
  obtain ⟨ss', hss', _, _, k, b, hk, hb, _⟩ := C62_chunks_tile_partial ny nx sy sx hsy hsx hy hx y x hyl hxl
  rw [hss] at hss'
  injection hss' with hss'
  subst hss'
  have hlt := (List.getElem?_eq_some_iff.1 hk).1
  refine ⟨(b, values[k]'(by omega)), ?_, hb⟩
  apply List.mem_of_getElem? (i := k)
  rw [List.getElem?_zip_eq_some]
  exact ⟨hk, List.getElem?_eq_getElem _⟩

/-- C50 (three dimensions): each time of the destination is what inserting the chunks of that time gives. -/
theorem C50_insert_times {β : Type _} (chunks : List (Bounds × List (List (List β)))) (masters : List (List (List β))) (t0 : Nat)
    (outs : List (List (List β))) (h : insert3 chunks t0 masters = .ok outs) :
    outs.length = masters.length ∧ ∀ (k : Nat) (m : List (List β)), masters[k]? = some m →
      ∃ o cs, outs[k]? = some o ∧ insert2 cs m = .ok o ∧ cs.map (·.1) = chunks.map (·.1) ∧
        ∀ (i : Nat) b (v : List (List β)), cs[i]? = some (b, v) → ∃ d, chunks[i]? = some (b, d) ∧ d[t0 + k]? = some v := by
  induction masters generalizing t0 outs with
  | nil =>
    simp only [insert3, Except.ok.injEq] at h
    subst h
    simp
  | cons m ms ih =>
    rw [insert3] at h
    cases hcs : chunksAt chunks t0 with
    | error e => rw [hcs] at h; cases h
    | ok cs =>
      rw [hcs] at h
      simp only [bind, Except.bind] at h
      cases hi : insert2 cs m with
      | error e => rw [hi] at h; cases h
      | ok o =>
        rw [hi] at h
        simp only at h
        cases hr : insert3 chunks (t0 + 1) ms with
        | error e => rw [hr] at h; cases h
        | ok os =>
          rw [hr] at h
          simp only [pure, Except.pure, Except.ok.injEq] at h
          subst h
          obtain ⟨h1, h2⟩ := ih (t0 + 1) os hr
          refine ⟨by simp [h1], ?_⟩
          intro k m' hk
          cases k with
          | zero =>
            simp only [List.getElem?_cons_zero, Option.some.injEq] at hk
            subst hk
            have key : ∀ (l : List (Bounds × List (List (List β)))) r, chunksAt l t0 = .ok r →
                r.map (·.1) = l.map (·.1) ∧ ∀ (i : Nat) b (v : List (List β)), r[i]? = some (b, v) → ∃ d, l[i]? = some (b, d) ∧ d[t0]? = some v := by
              intro l
              induction l with
              | nil => intro r hr; cases hr; simp
              | cons a l ihl =>
                intro r hr
                unfold chunksAt at hr
                rw [List.mapM_cons, chunkAt] at hr
                cases ha : a.2[t0]? with
                | none => rw [ha] at hr; cases hr
                | some v0 =>
                  rw [ha] at hr
                  simp only [bind, Except.bind] at hr
                  cases hl : List.mapM (chunkAt t0) l with
                  | error e => rw [hl] at hr; cases hr
                  | ok r' =>
                    rw [hl] at hr
                    simp only [pure, Except.pure, Except.ok.injEq] at hr
                    subst hr
                    obtain ⟨g1, g2⟩ := ihl r' hl
                    refine ⟨by simp [g1], ?_⟩
                    intro i b v hi
                    cases i with
                    | zero =>
                      simp only [List.getElem?_cons_zero, Option.some.injEq, Prod.mk.injEq] at hi ⊢
                      obtain ⟨rfl, rfl⟩ := hi
                      exact ⟨a.2, rfl, ha⟩
                    | succ i => simpa using g2 i b v (by simpa using hi)
            obtain ⟨g1, g2⟩ := key chunks cs hcs
            exact ⟨o, cs, by simp, hi, g1, by simpa using g2⟩
          | succ k =>
            obtain ⟨o', cs', g1, g2, g3, g4⟩ := h2 k m' (by simpa using hk)
            exact ⟨o', cs', by simpa using g1, g2, g3, by rw [show t0 + (k + 1) = t0 + 1 + k by omega]; exact g4⟩

example : insert2 [(((0, 1), (0, 2)), [[1, 2]]), (((1, 2), (0, 2)), [[3, 4]])] [[0, 0], [0, 0]] = .ok [[1, 2], [3, 4]] := by decide
example : insert3 [(((0, 1), (0, 2)), [[[1, 2]], [[5, 6]]]), (((1, 2), (0, 2)), [[[3, 4]], [[7, 8]]])] 0 [[[0, 0], [0, 0]], [[0, 0], [0, 0]]] =
    .ok [[[1, 2], [3, 4]], [[5, 6], [7, 8]]] := by decide

end Ocgis.Props
