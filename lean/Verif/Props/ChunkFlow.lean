import Verif.Proofs.ChunkFlow
import Verif.Props.GridChunk
import Verif.Props.GeomSelect
/-!
# C88: chunked weights are the weights of the whole
-/
namespace Ocgis.Props
open Ocgis Ocgis.ChunkFlow
open Ocgis.Coords (Grid1)
open Ocgis.Select (Box cellBox hint)
open Ocgis.GeomSelect (Shapely Rect gridSubset Smallest CellSelected maskAt)
open Ocgis.GridChunk (Bounds WeightFile Merged ChunkMap dstSlices merge)
open Ocgis.Spec (InChunk numberInChunk numberInGrid Means allWeights SameLength ChunksInside)

/-- Chunks whose source slices have what their destination chunks need give the weights of the whole. -/
theorem same_of_selected {N : Type} [DecidableEq N] (s : Shapely Box) (o : Options) (src dst : CGrid) (sy sx : Nat)
    (w : Nat × Nat → Nat × Nat → Rat) (name : Nat → N) (hname : ∀ i j, name i = name j → i = j)
    (hone : ¬ (sy = 1 ∧ sx = 1)) (hsy : 0 < sy) (hsx : 0 < sx) (hy : sy = 1 ∨ 2 ≤ dst.ny) (hx : sx = 1 ∨ 2 ≤ dst.nx)
    (hny : 0 < dst.ny) (hnx : 0 < dst.nx)
    (hsel : ∀ bs, dstSlices dst.ny dst.nx sy sx none = .ok bs → ∀ b ∈ bs, ∃ out, chunkSource s o src dst b = .ok out ∧
      (out.slice.r0 ≤ out.slice.r1 ∧ out.slice.r1 ≤ src.ny) ∧ (out.slice.c0 ≤ out.slice.c1 ∧ out.slice.c1 ≤ src.nx) ∧
      ∀ c d : Nat × Nat, c.1 < src.ny → c.2 < src.nx → InChunk b d.1 d.2 → w c d ≠ 0 →
        (src.masked c.1 c.2 = false ↔ InChunk (bounds out.slice) c.1 c.2 ∧ outMask out c = false)) :
    ∃ m, chunkedWeights s o src dst sy sx w name = .ok m ∧ SameWeights m (wholeWeights src dst w) := by
  obtain ⟨bs, hbs, _, hin, _⟩ := C62_chunks_tile_partial dst.ny dst.nx sy sx hsy hsx hy hx 0 0 hny hnx
  have htile : ∀ y x, y < dst.ny → x < dst.nx → ∃ (k : Nat) (b : Bounds), bs[k]? = some b ∧ InChunk b y x ∧
      ∀ (k' : Nat) (b' : Bounds), bs[k']? = some b' → InChunk b' y x → k' = k := by
    intro y x h1 h2
    obtain ⟨bs', hbs', _, _, h⟩ := C62_chunks_tile_partial dst.ny dst.nx sy sx hsy hsx hy hx y x h1 h2
    rw [hbs] at hbs'
    cases hbs'
    exact h
  have hsel' := hsel bs hbs
  let out : Bounds → GeomSelect.GridOut Box := fun b => match chunkSource s o src dst b with
    | .ok r => r
    | .error _ => ⟨⟨0, 0, 0, 0⟩, none, none, none⟩
  have hout : ∀ b r, chunkSource s o src dst b = .ok r → out b = r := by
    intro b r h
    simp only [out, h]
  have hsel2 : ∀ b ∈ bs, chunkSource s o src dst b = .ok (out b) ∧
      ((out b).slice.r0 ≤ (out b).slice.r1 ∧ (out b).slice.r1 ≤ src.ny) ∧
      ((out b).slice.c0 ≤ (out b).slice.c1 ∧ (out b).slice.c1 ≤ src.nx) ∧
      ∀ c d : Nat × Nat, c.1 < src.ny → c.2 < src.nx → InChunk b d.1 d.2 → w c d ≠ 0 →
        (src.masked c.1 c.2 = false ↔ InChunk (bounds (out b).slice) c.1 c.2 ∧ outMask (out b) c = false) := by
    intro b hb
    obtain ⟨r, h1, h2⟩ := hsel' b hb
    rw [hout b r h1]
    exact ⟨h1, h2⟩
  let dm : Nat × Nat → Bool := fun c => dst.masked c.1 c.2
  let F : Bounds → WeightFile := fun b => fileOf w (bounds (out b).slice) (outMask (out b)) b dm
  let P : Bounds → List ((Nat × Nat) × (Nat × Nat)) := fun b => pairs w (bounds (out b).slice) (outMask (out b)) b dm
  obtain ⟨store, hw1, hw2, _⟩ := writeLoop_spec s o src dst w name hname out bs 1 [] (fun b hb => (hsel2 b hb).1)
  have hfiles := files_eq name store bs F 1 hw2
  have hF : ∀ b, F b = ⟨(P b).map fun p => numberInChunk b p.1.1 p.1.2,
      (P b).map fun p => numberInChunk (bounds (out b).slice) p.2.1 p.2.2, (P b).map fun p => w p.2 p.1⟩ :=
    fun b => fileOf_eq w _ _ b dm
  have hrun : chunkedWeights s o src dst sy sx w name = merge 1 false
      (.structured (src.ny, src.nx) (bs.map fun b => bounds (out b).slice)) (.structured (dst.ny, dst.nx) bs)
      (bs.map fun b => some (F b)) := by
    unfold chunkedWeights writeChunks
    rw [if_neg (by simpa using hone), hbs]
    simp only [bind, Except.bind]
    rw [hw1]
    simp only
    rw [hfiles]
  let SM : ChunkMap := .structured (src.ny, src.nx) (bs.map fun b => bounds (out b).slice)
  let DM : ChunkMap := .structured (dst.ny, dst.nx) bs
  have hSM : ChunksInside SM := by
    intro b hb
    rw [List.mem_map] at hb
    obtain ⟨b', hb', rfl⟩ := hb
    exact ⟨(hsel2 b' hb').2.1.2, (hsel2 b' hb').2.2.1.2⟩
  have hDM : ChunksInside DM := fun b hb => hin b hb
  have meansD : ∀ (ii : Nat) (b : Bounds) (y x : Nat), bs[ii]? = some b → InChunk b y x →
      Means DM ii (numberInChunk b y x) (numberInGrid (dst.ny, dst.nx) y x) :=
    fun ii b y x h1 h2 => ⟨b, y, x, h1, h2, rfl, rfl⟩
  have meansS : ∀ (ii : Nat) (b : Bounds) (y x : Nat), bs[ii]? = some b → InChunk (bounds (out b).slice) y x →
      Means SM ii (numberInChunk (bounds (out b).slice) y x) (numberInGrid (src.ny, src.nx) y x) :=
    fun ii b y x h1 h2 => ⟨_, y, x, by simp [h1], h2, rfl, rfl⟩
  have hread : ∀ (ii : Nat) f, (bs.map fun b => some (F b))[ii]? = some (some f) → SameLength f ∧
      (∀ v ∈ f.row, ∃ g, Means DM ii v g) ∧ (∀ v ∈ f.col, ∃ g, Means SM ii v g) ∧
      (f.s = [] → (∃ o, GridChunk.chunkIndices DM ii = .ok o) ∧ ∃ o, GridChunk.chunkIndices SM ii = .ok o) := by
    intro ii f hf
    rw [List.getElem?_map] at hf
    cases hb : bs[ii]? with
    | none => rw [hb] at hf; cases hf
    | some b =>
      rw [hb] at hf
      simp only [Option.map_some, Option.some.injEq] at hf
      subst hf
      rw [hF b]
      refine ⟨by constructor <;> simp, ?_, ?_, ?_⟩
      · intro v hv
        simp only [List.mem_map] at hv
        obtain ⟨p, hp, rfl⟩ := hv
        exact ⟨_, meansD ii b _ _ hb (pairs_mem hp).1⟩
      · intro v hv
        simp only [List.mem_map] at hv
        obtain ⟨p, hp, rfl⟩ := hv
        exact ⟨_, meansS ii b _ _ hb (pairs_mem hp).2⟩
      · intro _
        constructor
        · simp only [DM, GridChunk.chunkIndices, hb]
          exact ⟨_, rfl⟩
        · simp only [SM, GridChunk.chunkIndices, List.getElem?_map, hb, Option.map_some]
          exact ⟨_, rfl⟩
  obtain ⟨rows, cols, ss, hm, hl1, hl2, hl3, hk⟩ := C49_merged_weights false SM DM hSM hDM (bs.map fun b => some (F b))
    (Or.inl rfl) hread
  have hall := allWeights_eq bs F P (fun b => bounds (out b).slice) w hF
  -- the rows, columns and factors are those of the pairs of cells
  have hget : ∀ (k : Nat) t, (tagged bs P)[k]? = some t →
      rows[k]? = some (numberInGrid (dst.ny, dst.nx) t.2.1.1 t.2.1.2) ∧
      cols[k]? = some (numberInGrid (src.ny, src.nx) t.2.2.1 t.2.2.2) ∧ ss[k]? = some (w t.2.2 t.2.1) := by
    intro k t ht
    obtain ⟨h1, h2⟩ := tagged_mem (List.mem_of_getElem? ht)
    obtain ⟨⟨r', hr1, _, hr3⟩, ⟨c', hc1, _, hc3⟩, hs⟩ := hk k _ _ _ _ (by rw [hall, List.getElem?_map, ht]; rfl)
    refine ⟨?_, ?_, hs⟩
    · rw [hr1, hr3 _ (meansD _ _ _ _ h1 (pairs_mem h2).1)]
    · rw [hc1, hc3 _ (meansS _ _ _ _ h1 (pairs_mem h2).2)]
  have hlen : (allWeights (bs.map fun b => some (F b))).length = (tagged bs P).length := by rw [hall, List.length_map]
  have eqlist : ∀ {β : Type} (l : List β) (f : _ → β), l.length = (tagged bs P).length →
      (∀ (k : Nat) t, (tagged bs P)[k]? = some t → l[k]? = some (f t)) → l = (tagged bs P).map f := by
    intro β l f hl h
    apply List.ext_getElem?
    intro k
    rw [List.getElem?_map]
    cases hk : (tagged bs P)[k]? with
    | none =>
      rw [List.getElem?_eq_none_iff] at hk
      simp only [Option.map_none, List.getElem?_eq_none_iff]
      omega
    | some t => exact h k t hk
  have er := eqlist rows _ (by omega) (fun k t h => (hget k t h).1)
  have ec := eqlist cols _ (by omega) (fun k t h => (hget k t h).2.1)
  have es := eqlist ss _ (by omega) (fun k t h => (hget k t h).2.2)
  refine ⟨_, hrun.trans hm, ?_⟩
  let whole : List ((Nat × Nat) × (Nat × Nat)) := pairs w ((0, src.ny), (0, src.nx)) (fun c => src.masked c.1 c.2)
    ((0, dst.ny), (0, dst.nx)) dm
  let num : (Nat × Nat) × (Nat × Nat) → Option Int × Option Int × Option Rat := fun p =>
    (some (numberInGrid (dst.ny, dst.nx) p.1.1 p.1.2), some (numberInGrid (src.ny, src.nx) p.2.1 p.2.2), some (w p.2 p.1))
  have hleft : mergedEntries ⟨rows.map some, cols.map some, ss.map some⟩ = (bs.flatMap P).map num := by
    unfold mergedEntries
    simp only
    rw [er, ec, es]
    simp only [List.map_map]
    rw [zip3_map, ← tagged_drop bs P num]
    rfl
  have hright : ((wholeWeights src dst w).map fun e => (some e.1, some e.2.1, some e.2.2)) = whole.map num := by
    unfold wholeWeights entries
    rw [fileOf_eq, zip3_map, List.map_map]
    apply List.map_congr_left
    intro p hp
    simp only [Function.comp, num, numberInChunk, numberInGrid, Nat.sub_zero]
  unfold SameWeights
  rw [hleft, hright]
  apply List.Perm.map
  -- each destination cell has the same pairs in its chunk as in the whole
  let f : Nat × Nat → List ((Nat × Nat) × (Nat × Nat)) := fun d => if dm d then [] else
    (cells ((0, src.ny), (0, src.nx))).filterMap fun c => if src.masked c.1 c.2 || w c d == 0 then none else some (d, c)
  have hP : ∀ b ∈ bs, P b = (cells b).flatMap f := by
    intro b hb
    obtain ⟨_, hr, hc, hwt⟩ := hsel2 b hb
    exact pairs_eq w _ _ (fun c => src.masked c.1 c.2) b dm src.ny src.nx hr hc hwt
  have : bs.flatMap P = (bs.flatMap cells).flatMap f := by
    rw [List.flatMap_assoc]
    exact flatMap_same _ _ _ hP
  rw [this]
  exact (tiles_perm bs dst.ny dst.nx hin htile).flatMap_right f

/-- C88 (part): for every pair of grids with bounds, the source without a mask, and every method whose weights belong to
pairs of overlapping cells: if the buffer is at least the reach of the source cells from their centres, and each
destination chunk has a cell that overlaps the source and one that is not masked, then writing the chunks and merging
their weight files gives the weights of the whole: the same, each as often.  Missing: sources that reach further than
the buffer (`C88_coarse_counterexample`, `C88_signed_counterexample`), masked sources (`C88_mask_counterexample`),
chunks outside of the source (`C88_outside_counterexample`), file names that are not different
(`C88_template_counterexample`), dimensions of length one that are split (C62). -/
theorem C88_whole_partial {N : Type} [DecidableEq N] (s : Shapely Box) (o : Options) (src dst : CGrid) (sy sx : Nat)
    (w : Nat × Nat → Nat × Nat → Rat) (name : Nat → N) (hname : ∀ i j, name i = name j → i = j)
    (hopt : o.optimized = true) (hcheck : o.checkContains = false) (hallow : o.allowMasked = true)
    (hone : ¬ (sy = 1 ∧ sx = 1)) (hsy : 0 < sy) (hsx : 0 < sx) (hy : sy = 1 ∨ 2 ≤ dst.ny) (hx : sx = 1 ∨ 2 ≤ dst.nx)
    (hny : 0 < dst.ny) (hnx : 0 < dst.nx) (hdst : Bounded dst) (hsrc : src.mask = none) (hw : Local src dst w)
    (hreach : Reach src (bufferValue o src.g dst.g))
    (hmeet : ∀ bs, dstSlices dst.ny dst.nx sy sx none = .ok bs → ∀ b ∈ bs,
      (∃ d : Nat × Nat, InChunk b d.1 d.2 ∧ ∃ c : Nat × Nat, c.1 < src.ny ∧ c.2 < src.nx ∧
        Overlap (cellBox src.g true c.1 c.2) (cellBox dst.g true d.1 d.2)) ∧
      ∃ d : Nat × Nat, InChunk b d.1 d.2 ∧ dst.masked d.1 d.2 = false) :
    ∃ m, chunkedWeights s o src dst sy sx w name = .ok m ∧ SameWeights m (wholeWeights src dst w) := by
  obtain ⟨bs, hbs, _, hin, _⟩ := C62_chunks_tile_partial dst.ny dst.nx sy sx hsy hsx hy hx 0 0 hny hnx
  refine same_of_selected s o src dst sy sx w name hname hone hsy hsx hy hx hny hnx ?_
  intro bs' hbs' b hb
  obtain ⟨⟨d0, hd0, c0, hc1, hc2, hov⟩, d1, hd1, hm1⟩ := hmeet bs' hbs' b hb
  rw [hbs] at hbs'
  cases hbs'
  obtain ⟨e, he, hecells⟩ := extent_spec dst hdst b (hin b hb) ⟨d0.1, d0.2, hd0⟩
  have hnear : ∀ c d : Nat × Nat, c.1 < src.ny → c.2 < src.nx → InChunk b d.1 d.2 →
      Overlap (cellBox src.g true c.1 c.2) (cellBox dst.g true d.1 d.2) →
      hint src.g (e.expand (bufferValue o src.g dst.g)) c.1 c.2 = true := by
    intro c d h1 h2 h3 h4
    exact hint_of_overlap src _ hreach e _ (hecells _ _ h3) c.1 c.2 h1 h2 h4 _ (le_refl _)
  obtain ⟨out, hout, hsm, hmask⟩ := (C87_grid_optimized_partial s src.grid .intersects
    (e.expand (bufferValue o src.g dst.g)) (hint src.g (e.expand (bufferValue o src.g dst.g))) false hsrc).2
    ⟨c0.1, c0.2, hc1, hc2, hnear c0 d0 hc1 hc2 hd0 hov⟩
  refine ⟨out, ?_, ⟨by have := hsm.inside; omega, hsm.inside.2.1⟩, ⟨by have := hsm.inside; omega, hsm.inside.2.2.2⟩, ?_⟩
  · unfold chunkSource
    have hall : (dst.mask.isSome && (cells b).all fun c => dst.masked c.1 c.2) = false := by
      rw [Bool.and_eq_false_iff]
      right
      rw [List.all_eq_false]
      exact ⟨d1, (mem_cells _ _).mpr hd1, by simp [hm1]⟩
    rw [hall, he, hopt, hallow, hcheck]
    simp only [Bool.false_eq_true, if_false, if_true, bind, Except.bind, Bool.not_true,
      Bool.false_and]
    rw [hout]
  · intro c d h1 h2 h3 h0
    have hn := hnear c d h1 h2 h3 (hw c d h0)
    have hhas := hsm.has c.1 c.2 h1 h2 hn
    have hsl : InChunk (bounds out.slice) c.1 c.2 := hhas
    have : src.masked c.1 c.2 = false := by simp [CGrid.masked, hsrc]
    simp only [this, true_iff]
    refine ⟨hsl, ?_⟩
    have hin' := hsm.inside
    have hq := (hmask (c.1 - out.slice.r0) (c.2 - out.slice.c0) (by unfold GeomSelect.Rect.Has at hhas; omega)
      (by unfold GeomSelect.Rect.Has at hhas; omega)).mpr (by
        unfold GeomSelect.Rect.Has at hhas
        rw [Nat.add_sub_cancel' hhas.1, Nat.add_sub_cancel' hhas.2.2.1]
        exact hn)
    exact hq

/-- C88 (part): without the optimized selection, for every source with bounds and any mask: if the buffer is not negative
and the source cells reach no further from their centres than five quarters of the resolution of the source (C23), and
each destination chunk has a cell that overlaps a source cell that is not masked, and one that is not masked, then the
merged weights are those of the whole.  Missing: the same as for `C88_whole_partial`, except masked sources. -/
theorem C88_exact_partial {N : Type} [DecidableEq N] (s : Shapely Box) (hs : BoxLaw s) (o : Options) (src dst : CGrid)
    (sy sx : Nat) (w : Nat × Nat → Nat × Nat → Rat) (name : Nat → N) (hname : ∀ i j, name i = name j → i = j)
    (hopt : o.optimized = false) (hcheck : o.checkContains = false) (hallow : o.allowMasked = true)
    (hone : ¬ (sy = 1 ∧ sx = 1)) (hsy : 0 < sy) (hsx : 0 < sx) (hy : sy = 1 ∨ 2 ≤ dst.ny) (hx : sx = 1 ∨ 2 ≤ dst.nx)
    (hny : 0 < dst.ny) (hnx : 0 < dst.nx) (hdst : Bounded dst) (hsrc : Bounded src) (hw : Local src dst w)
    (hbuf : 0 ≤ bufferValue o src.g dst.g) (r : Rat) (hr : Select.resolution limit src.g = .ok r)
    (hreach : Reach src (r * (5 / 4)))
    (hmeet : ∀ bs, dstSlices dst.ny dst.nx sy sx none = .ok bs → ∀ b ∈ bs,
      (∃ d : Nat × Nat, InChunk b d.1 d.2 ∧ ∃ c : Nat × Nat, c.1 < src.ny ∧ c.2 < src.nx ∧ src.masked c.1 c.2 = false ∧
        Overlap (cellBox src.g true c.1 c.2) (cellBox dst.g true d.1 d.2)) ∧
      ∃ d : Nat × Nat, InChunk b d.1 d.2 ∧ dst.masked d.1 d.2 = false) :
    ∃ m, chunkedWeights s o src dst sy sx w name = .ok m ∧ SameWeights m (wholeWeights src dst w) := by
  obtain ⟨bs, hbs, _, hin, _⟩ := C62_chunks_tile_partial dst.ny dst.nx sy sx hsy hsx hy hx 0 0 hny hnx
  refine same_of_selected s o src dst sy sx w name hname hone hsy hsx hy hx hny hnx ?_
  intro bs' hbs' b hb
  obtain ⟨⟨d0, hd0, c0, hc1, hc2, hc3, hov⟩, d1, hd1, hm1⟩ := hmeet bs' hbs' b hb
  rw [hbs] at hbs'
  cases hbs'
  obtain ⟨e, he, hecells⟩ := extent_spec dst hdst b (hin b hb) ⟨d0.1, d0.2, hd0⟩
  let box := e.expand (bufferValue o src.g dst.g)
  have hcell : ∀ i j, src.grid.cell i j = cellBox src.g true i j := by
    intro i j
    show cellBox src.g src.hasBounds i j = _
    rw [hsrc.has]
  have hmasked : ∀ i j, src.grid.masked i j = src.masked i j := by
    intro i j
    unfold GeomSelect.Grid.masked CGrid.masked CGrid.grid
    cases src.mask <;> rfl
  have hchosen : ∀ c d : Nat × Nat, InChunk b d.1 d.2 →
      Overlap (cellBox src.g true c.1 c.2) (cellBox dst.g true d.1 d.2) →
      GeomSelect.Chosen s box false (src.grid.cell c.1 c.2) := by
    intro c d h3 h4
    rw [hcell]
    have : Overlap box (cellBox src.g true c.1 c.2) := by
      obtain ⟨e1, e2, e3, e4⟩ := hecells _ _ h3
      obtain ⟨o1, o2, o3, o4⟩ := h4
      unfold Overlap
      simp only [box, Box.expand]
      refine ⟨?_, ?_, ?_, ?_⟩ <;> linarith
    obtain ⟨h5, h6⟩ := (hs _ _).mpr this
    exact ⟨h5, Or.inr h6⟩
  have hnear : ∀ i j, i < src.grid.nrow → j < src.grid.ncol → GeomSelect.Chosen s box false (src.grid.cell i j) →
      hint src.g (box.expand (r * (5 / 4))) i j = true := by
    intro i j hi hj h
    rw [hcell] at h
    have ho : Overlap box (cellBox src.g true i j) := (hs _ _).mp ⟨h.1, h.2.resolve_left (by simp)⟩
    exact hint_of_overlap src _ hreach box box ⟨le_refl _, le_refl _, le_refl _, le_refl _⟩ i j hi hj
      ⟨ho.2.1, ho.1, ho.2.2.2, ho.2.2.1⟩ _ (le_refl _)
  obtain ⟨out, hout, hsm, hmask, _⟩ := (C87_grid_partial s src.grid .intersects box
    (hint src.g (box.expand (r * (5 / 4)))) false hnear).2
    ⟨c0.1, c0.2, hc1, hc2, by rw [hmasked]; exact hc3, hchosen c0 d0 hd0 hov⟩
  refine ⟨out, ?_, ⟨by have := hsm.inside; omega, hsm.inside.2.1⟩, ⟨by have := hsm.inside; omega, hsm.inside.2.2.2⟩, ?_⟩
  · unfold chunkSource
    have hall : (dst.mask.isSome && (cells b).all fun c => dst.masked c.1 c.2) = false := by
      rw [Bool.and_eq_false_iff]
      right
      rw [List.all_eq_false]
      exact ⟨d1, (mem_cells _ _).mpr hd1, by simp [hm1]⟩
    rw [hall, he, hopt, hallow, hcheck, hr]
    simp only [Bool.false_eq_true, if_false, bind, Except.bind, Bool.not_true, Bool.false_and, Except.map]
    rw [hout]
  · intro c d h1 h2 h3 h0
    have hch := hchosen c d h3 (hw c d h0)
    have hq : ∀ (hhas : InChunk (bounds out.slice) c.1 c.2), outMask out c = false ↔ CellSelected s src.grid box false c.1 c.2 := by
      intro hhas
      unfold InChunk bounds at hhas
      simp only at hhas
      have := hmask (c.1 - out.slice.r0) (c.2 - out.slice.c0) (by omega) (by omega)
      rw [Nat.add_sub_cancel' hhas.1, Nat.add_sub_cancel' hhas.2.2.1] at this
      exact this
    constructor
    · intro hm
      have hsel : CellSelected s src.grid box false c.1 c.2 := ⟨by rw [hmasked]; exact hm, hch⟩
      have hhas : InChunk (bounds out.slice) c.1 c.2 := hsm.has c.1 c.2 h1 h2 hsel
      exact ⟨hhas, (hq hhas).mpr hsel⟩
    · rintro ⟨hhas, hm⟩
      have := ((hq hhas).mp hm).1
      rw [hmasked] at this
      exact this

/-- C88 (part): the buffer or the two resolutions that the caller gives are used: if the given buffer, or twice the smaller of
the given resolutions, is at least the reach of the source cells from their centres, the merged weights are those of the
whole.  Missing: the same as for `C88_whole_partial`. -/
theorem C88_given_partial {N : Type} [DecidableEq N] (s : Shapely Box) (o : Options) (src dst : CGrid) (sy sx : Nat)
    (w : Nat × Nat → Nat × Nat → Rat) (name : Nat → N) (hname : ∀ i j, name i = name j → i = j)
    (hopt : o.optimized = true) (hcheck : o.checkContains = false) (hallow : o.allowMasked = true)
    (hone : ¬ (sy = 1 ∧ sx = 1)) (hsy : 0 < sy) (hsx : 0 < sx) (hy : sy = 1 ∨ 2 ≤ dst.ny) (hx : sx = 1 ∨ 2 ≤ dst.nx)
    (hny : 0 < dst.ny) (hnx : 0 < dst.nx) (hdst : Bounded dst) (hsrc : src.mask = none) (hw : Local src dst w)
    (given : Rat) (hg : o.buffer = some given ∨ (o.buffer = none ∧ ∃ r q, o.srcRes = some r ∧ o.dstRes = some q ∧ given = 2 * min r q))
    (hreach : Reach src given)
    (hmeet : ∀ bs, dstSlices dst.ny dst.nx sy sx none = .ok bs → ∀ b ∈ bs,
      (∃ d : Nat × Nat, InChunk b d.1 d.2 ∧ ∃ c : Nat × Nat, c.1 < src.ny ∧ c.2 < src.nx ∧
        Overlap (cellBox src.g true c.1 c.2) (cellBox dst.g true d.1 d.2)) ∧
      ∃ d : Nat × Nat, InChunk b d.1 d.2 ∧ dst.masked d.1 d.2 = false) :
    ∃ m, chunkedWeights s o src dst sy sx w name = .ok m ∧ SameWeights m (wholeWeights src dst w) := by
  have e : bufferValue o src.g dst.g = given := by
    unfold bufferValue
    rcases hg with h | ⟨h, r, q, hr, hq, rfl⟩
    · rw [h]
    · rw [h, hr, hq]
      simp only [Option.getD_some]
      rw [min_comm]
      congr 1
  exact C88_whole_partial s o src dst sy sx w name hname hopt hcheck hallow hone hsy hsx hy hx hny hnx hdst hsrc hw
    (by rw [e]; exact hreach) hmeet

/-- C88 (part): the default buffer is enough for evenly spaced coordinates that are not negative, at least two in each
direction, when the source cells extend by half a spacing and the larger source spacing is at most four times the
larger destination spacing.  Missing: coarser sources (`C88_coarse_counterexample`), coordinates around zero
(`C88_signed_counterexample`). -/
theorem C88_default_partial (o : Options) (ho : o.buffer = none ∧ o.srcRes = none ∧ o.dstRes = none) (src dst : CGrid)
    (hx hy kx ky : Rat) (h0 : 0 ≤ hx ∧ 0 ≤ hy ∧ 0 ≤ kx ∧ 0 ≤ ky)
    (hsx : Even hx src.g.x) (hsy : Even hy src.g.y) (hdx : Even kx dst.g.x) (hdy : Even ky dst.g.y)
    (hl : 2 ≤ src.g.x.length ∧ 2 ≤ src.g.y.length ∧ 2 ≤ dst.g.x.length ∧ 2 ≤ dst.g.y.length)
    (hreach : Reach src (max hx hy / 2)) (h4 : max hx hy ≤ 4 * max kx ky) :
    bufferValue o src.g dst.g = 2 * min (max hx hy) (max kx ky) ∧ Reach src (bufferValue o src.g dst.g) := by
  have e : bufferValue o src.g dst.g = 2 * min (max hx hy) (max kx ky) := by
    unfold bufferValue resolutionMax
    rw [ho.1, ho.2.1, ho.2.2]
    simp only [Option.getD_none]
    rw [even_resolution h0.1 _ hsx hl.1, even_resolution h0.2.1 _ hsy hl.2.1, even_resolution h0.2.2.1 _ hdx hl.2.2.1,
      even_resolution h0.2.2.2 _ hdy hl.2.2.2, min_comm]
    congr 1
  refine ⟨e, ?_⟩
  have hle : max hx hy / 2 ≤ bufferValue o src.g dst.g := by
    rw [e]
    have : 0 ≤ max hx hy := le_trans h0.1 (le_max_left _ _)
    rcases le_total (max hx hy) (max kx ky) with h | h
    · rw [min_eq_left h]; linarith
    · rw [min_eq_right h]; linarith
  intro i j hi hj
  obtain ⟨r1, r2, r3, r4⟩ := hreach i j hi hj
  refine ⟨?_, ?_, ?_, ?_⟩ <;> linarith

/-- C88: one chunk is refused. -/
theorem C88_one_chunk {N : Type} [BEq N] (s : Shapely Box) (o : Options) (src dst : CGrid)
    (w : Nat × Nat → Nat × Nat → Rat) (name : Nat → N) : chunkedWeights s o src dst 1 1 w name = .error .valueError := rfl

/-- C88: the areas that cells have in common belong to overlapping cells, for every pair of grids. -/
theorem C88_area (src dst : CGrid) : Local src dst (areaWeight src dst) := fun _ _ h => overlap_of_area _ _ h

/-- C88: what the checks promise: with `check_contains` the source chunk that is returned has an extent that misses at
most `1e-8 + 1e-5 * area` of the extent of the destination chunk; without `allow_masked` no cell of it is masked. -/
theorem C88_checked (s : Shapely Box) (o : Options) (src dst : CGrid) (b : Bounds) (out : GeomSelect.GridOut Box)
    (h : chunkSource s o src dst b = .ok out) :
    (o.checkContains = true → ∃ se e, extent src (bounds out.slice) = .ok se ∧ extent dst b = .ok e ∧
      |commonArea se e - commonArea e e| ≤ 1 / 100000000 + 1 / 100000 * |commonArea e e|) ∧
    (o.allowMasked = false → ∀ i j, i < out.slice.r1 - out.slice.r0 → j < out.slice.c1 - out.slice.c0 →
      maskAt out.mask i j = false) := by
  have habs : ∀ x : Rat, Select.absR x = |x| := by
    intro x
    unfold Select.absR
    split
    · rw [abs_of_neg (by assumption)]
    · rw [abs_of_nonneg (not_lt.mp (by assumption))]
  unfold chunkSource at h
  cases h1 : (dst.mask.isSome && (cells b).all fun c => dst.masked c.1 c.2) with
  | true => rw [h1] at h; cases h
  | false =>
    rw [h1] at h
    cases h2 : extent dst b with
    | error e => rw [h2] at h; cases h
    | ok e =>
      rw [h2] at h
      simp only [Bool.false_eq_true, if_false, bind, Except.bind] at h
      have fin : (!o.allowMasked && out.mask.any (GeomSelect.anyTrue (out.slice.r1 - out.slice.r0)
            (out.slice.c1 - out.slice.c0))) = false ∧
          (o.checkContains = true → ∃ se, extent src (bounds out.slice) = .ok se ∧ contains se e = true) := by
        repeat' split at h
        all_goals first
          | cases h; done
          | (cases h; simp_all)
      obtain ⟨hmask, hc⟩ := fin
      constructor
      · intro hc'
        obtain ⟨se, hse, hcc⟩ := hc hc'
        refine ⟨se, e, hse, rfl, ?_⟩
        unfold contains at hcc
        rw [decide_eq_true_eq, habs, habs] at hcc
        exact hcc
      · intro ha i j hi hj
        rw [ha] at hmask
        simp only [Bool.not_false, Bool.true_and] at hmask
        cases hm : out.mask with
        | none => rfl
        | some f =>
          rw [hm] at hmask
          simp only [Option.any_some] at hmask
          show f i j = false
          unfold GeomSelect.anyTrue at hmask
          rw [List.any_eq_false] at hmask
          have hlt := GeomSelect.pos_lt hi hj
          have hg := GeomSelect.flat_get (out.slice.r1 - out.slice.r0) (out.slice.c1 - out.slice.c0) f _ hlt
          have := hmask _ (List.mem_of_getElem? hg)
          rw [GeomSelect.pos_div hj, GeomSelect.pos_mod hj] at this
          simpa using this

/-- C88: a source chunk that is around the destination chunk passes the check. -/
theorem C88_contains (a b : Box) (h : a.minx ≤ b.minx ∧ b.maxx ≤ a.maxx ∧ a.miny ≤ b.miny ∧ b.maxy ≤ a.maxy) :
    contains a b = true := by
  unfold contains
  rw [commonArea_inside a b h, sub_self, decide_eq_true_eq]
  have h1 : Select.absR 0 = 0 := by unfold Select.absR; simp
  have h2 : 0 ≤ Select.absR (commonArea b b) := by
    unfold Select.absR
    split <;> linarith
  rw [h1]
  linarith

/-- C88 (part): the index file gets the slices of all chunks, for any number of processes, if the processes agree and
process zero has all destination slices.  Missing: process zero without a part of a destination chunk, which happens with
a spatial decomposition (`C88_rank_counterexample`). -/
theorem C88_index_partial {α : Type} (src dst : List α) (gs gd : List (List (Option α))) (hs : Agree src gs)
    (hne : gs ≠ []) (hd : gd.head? = some (dst.map some)) : indexBounds gs gd = .ok (src, dst) := by
  obtain ⟨hlen, hag, hex⟩ := hs
  have hcol : collapse ((gs.headD []).length) gs = src.map some := by
    have hl : (gs.headD []).length = src.length := by
      cases gs with
      | nil => exact absurd rfl hne
      | cons g gs => exact hlen g (by simp)
    rw [hl]
    unfold collapse
    apply List.ext_getElem?
    intro k
    rw [List.getElem?_map, List.getElem?_map]
    by_cases hk : k < src.length
    · rw [List.getElem?_range hk, List.getElem?_eq_getElem hk]
      simp only [Option.map_some, Option.some.injEq]
      obtain ⟨r, hr, a, ha⟩ := hex k hk
      cases hf : gs.findSome? fun r => (r[k]?).join with
      | none =>
        rw [List.findSome?_eq_none_iff] at hf
        have := hf r hr
        rw [ha] at this
        cases this
      | some b =>
        obtain ⟨l1, r', l2, he, hr', _⟩ := List.findSome?_eq_some_iff.mp hf
        have hb : r'[k]? = some (some b) := by
          cases h : r'[k]? with
          | none => rw [h] at hr'; cases hr'
          | some x => rw [h] at hr'; rw [show x = some b from hr']
        rw [hag r' (by rw [he]; simp) k _ b (List.getElem?_eq_getElem hk) hb]
    · rw [List.getElem?_eq_none (by simpa using hk), List.getElem?_eq_none (by simpa using hk)]
      rfl
  unfold indexBounds
  rw [hcol, recordBounds_some]
  cases gd with
  | nil => cases hd
  | cons g gd =>
    simp only [List.head?_cons, Option.some.injEq] at hd
    subst hd
    simp only [List.headD_cons]
    rw [recordBounds_some]
    rfl

/-! ## Cases -/

/-- A strip of `n` cells of width `h` and height one, from `a`. -/
def strip (a h : Rat) (n : Nat) : CGrid :=
  ⟨⟨(List.range n).map fun (i : Nat) => a + (i : Rat) * h + h / 2, [1 / 2], (List.range n).map fun (i : Nat) => (a + (i : Rat) * h, a + (i : Rat) * h + h),
    [(0, 1)]⟩, true, none⟩

/-- Boxes. -/
def boxes : Shapely Box where
  intersects a b := decide (a.minx ≤ b.maxx) && decide (b.minx ≤ a.maxx) && decide (a.miny ≤ b.maxy) && decide (b.miny ≤ a.maxy)
  touches a b := (decide (a.minx ≤ b.maxx) && decide (b.minx ≤ a.maxx) && decide (a.miny ≤ b.maxy) && decide (b.miny ≤ a.maxy)) &&
    !(decide (a.minx < b.maxx) && decide (b.minx < a.maxx) && decide (a.miny < b.maxy) && decide (b.miny < a.maxy))
  intersection a _ := a
  distance _ _ := 0
  centroid a := a
  buffer a := a
  parts _ := none
  rtree l _ := List.range l.length

/-- The merged weights of two strips, the destination in two chunks. -/
def stripWeights (o : Options) (src dst : CGrid) : Res Merged :=
  chunkedWeights boxes o src dst 1 2 (areaWeight src dst) id

/-- Is the weight in the merged file? -/
def hasEntry (m : Res Merged) (r c : Int) (s : Rat) : Option Bool :=
  m.toOption.map fun m => (mergedEntries m).contains (some r, some c, some s)

theorem boxes_law : BoxLaw boxes := by
  intro a b
  unfold boxes Overlap
  simp only [Bool.and_eq_true, decide_eq_true_eq, Bool.and_eq_false_iff, Bool.not_eq_false', decide_eq_false_iff_not]
  constructor
  · rintro ⟨⟨⟨⟨h1, h2⟩, h3⟩, h4⟩, h5⟩
    rcases h5 with h5 | h5
    · tauto
    · tauto
  · rintro ⟨h1, h2, h3, h4⟩
    exact ⟨⟨⟨⟨le_of_lt h1, le_of_lt h2⟩, le_of_lt h3⟩, le_of_lt h4⟩, Or.inr ⟨⟨⟨h1, h2⟩, h3⟩, h4⟩⟩

/-- The chunks of a strip of eight cells. -/
theorem strip_slices : dstSlices 1 8 1 2 none = .ok [((0, 1), (0, 4)), ((0, 1), (4, 8))] := by decide

example : ∃ m, stripWeights {} (strip 0 2 4) (strip 0 1 8) = .ok m ∧
    SameWeights m (wholeWeights (strip 0 2 4) (strip 0 1 8) (areaWeight (strip 0 2 4) (strip 0 1 8))) := by
  refine C88_whole_partial boxes {} (strip 0 2 4) (strip 0 1 8) 1 2 _ id (fun _ _ h => h) rfl rfl rfl (by decide) (by decide)
    (by decide) (by decide) (by decide) (by decide) (by decide) ⟨rfl, rfl, rfl⟩ rfl (C88_area _ _) ?_ ?_
  · intro i j hi hj
    revert i j
    have : ∀ i < 1, ∀ j < 4, (strip 0 2 4).g.x.getD j 0 - bufferValue {} (strip 0 2 4).g (strip 0 1 8).g ≤ (cellBox (strip 0 2 4).g true i j).minx ∧
      (cellBox (strip 0 2 4).g true i j).maxx ≤ (strip 0 2 4).g.x.getD j 0 + bufferValue {} (strip 0 2 4).g (strip 0 1 8).g ∧
      (strip 0 2 4).g.y.getD i 0 - bufferValue {} (strip 0 2 4).g (strip 0 1 8).g ≤ (cellBox (strip 0 2 4).g true i j).miny ∧
      (cellBox (strip 0 2 4).g true i j).maxy ≤ (strip 0 2 4).g.y.getD i 0 + bufferValue {} (strip 0 2 4).g (strip 0 1 8).g := by decide +kernel
    exact fun i j hi hj => this i hi j hj
  · intro bs hbs b hb
    rw [show dstSlices (strip 0 1 8).ny (strip 0 1 8).nx 1 2 none = _ from strip_slices] at hbs
    cases hbs
    simp only [List.mem_cons, List.not_mem_nil, or_false] at hb
    rcases hb with rfl | rfl
    · exact ⟨⟨(0, 0), by unfold InChunk; decide, (0, 0), by decide, by decide, by unfold Overlap; decide +kernel⟩, (0, 0),
        by unfold InChunk; decide, rfl⟩
    · exact ⟨⟨(0, 4), by unfold InChunk; decide, (0, 2), by decide, by decide, by unfold Overlap; decide +kernel⟩, (0, 4),
        by unfold InChunk; decide, rfl⟩

example : (bufferValue {} (strip 0 2 4).g (strip 0 1 8).g, hasEntry (stripWeights {} (strip 0 2 4) (strip 0 1 8)) 4 2 1) =
    (2, some true) := by decide +kernel

/-- With a given buffer of one, and with given resolutions of one half and three. -/
example (o : Options) (ho : o = { buffer := some 1 } ∨ o = { srcRes := some (1 / 2), dstRes := some 3 }) :
    ∃ m, stripWeights o (strip 0 2 4) (strip 0 1 8) = .ok m ∧
    SameWeights m (wholeWeights (strip 0 2 4) (strip 0 1 8) (areaWeight (strip 0 2 4) (strip 0 1 8))) := by
  refine C88_given_partial boxes o (strip 0 2 4) (strip 0 1 8) 1 2 _ id (fun _ _ h => h) (by rcases ho with rfl | rfl <;> rfl)
    (by rcases ho with rfl | rfl <;> rfl) (by rcases ho with rfl | rfl <;> rfl) (by decide) (by decide)
    (by decide) (by decide) (by decide) (by decide) (by decide) ⟨rfl, rfl, rfl⟩ rfl (C88_area _ _) 1 ?_ ?_ ?_
  · rcases ho with rfl | rfl
    · exact .inl rfl
    · exact .inr ⟨rfl, 1 / 2, 3, rfl, rfl, by decide +kernel⟩
  · have : ∀ i < 1, ∀ j < 4, (strip 0 2 4).g.x.getD j 0 - 1 ≤ (cellBox (strip 0 2 4).g true i j).minx ∧
      (cellBox (strip 0 2 4).g true i j).maxx ≤ (strip 0 2 4).g.x.getD j 0 + 1 ∧
      (strip 0 2 4).g.y.getD i 0 - 1 ≤ (cellBox (strip 0 2 4).g true i j).miny ∧
      (cellBox (strip 0 2 4).g true i j).maxy ≤ (strip 0 2 4).g.y.getD i 0 + 1 := by decide +kernel
    exact fun i j hi hj => this i hi j hj
  · intro bs hbs b hb
    rw [show dstSlices (strip 0 1 8).ny (strip 0 1 8).nx 1 2 none = _ from strip_slices] at hbs
    cases hbs
    simp only [List.mem_cons, List.not_mem_nil, or_false] at hb
    rcases hb with rfl | rfl
    · exact ⟨⟨(0, 0), by unfold InChunk; decide, (0, 0), by decide, by decide, by unfold Overlap; decide +kernel⟩, (0, 0),
        by unfold InChunk; decide, rfl⟩
    · exact ⟨⟨(0, 4), by unfold InChunk; decide, (0, 2), by decide, by decide, by unfold Overlap; decide +kernel⟩, (0, 4),
        by unfold InChunk; decide, rfl⟩

/-- Two by two cells of size `h`. -/
def square (h : Rat) : CGrid := ⟨⟨[h / 2, h + h / 2], [h / 2, h + h / 2], [(0, h), (h, 2 * h)], [(0, h), (h, 2 * h)]⟩, true, none⟩

example : bufferValue {} (square 2).g (square 1).g = 2 ∧ Reach (square 2) 2 := by
  have h := C88_default_partial {} ⟨rfl, rfl, rfl⟩ (square 2) (square 1) 2 2 1 1 (by decide +kernel)
    (show (0 : Rat) ≤ 2 / 2 ∧ ((2 + 2 / 2 : Rat) - 2 / 2 = 2 ∨ (2 / 2 : Rat) - (2 + 2 / 2) = 2) ∧ (0 : Rat) ≤ 2 + 2 / 2 by
      decide +kernel)
    (show (0 : Rat) ≤ 2 / 2 ∧ ((2 + 2 / 2 : Rat) - 2 / 2 = 2 ∨ (2 / 2 : Rat) - (2 + 2 / 2) = 2) ∧ (0 : Rat) ≤ 2 + 2 / 2 by
      decide +kernel)
    (show (0 : Rat) ≤ 1 / 2 ∧ ((1 + 1 / 2 : Rat) - 1 / 2 = 1 ∨ (1 / 2 : Rat) - (1 + 1 / 2) = 1) ∧ (0 : Rat) ≤ 1 + 1 / 2 by
      decide +kernel)
    (show (0 : Rat) ≤ 1 / 2 ∧ ((1 + 1 / 2 : Rat) - 1 / 2 = 1 ∨ (1 / 2 : Rat) - (1 + 1 / 2) = 1) ∧ (0 : Rat) ≤ 1 + 1 / 2 by
      decide +kernel)
    (by decide) ?_ (by decide +kernel)
  · have e : bufferValue {} (square 2).g (square 1).g = 2 := by decide +kernel
    rw [e] at h
    exact ⟨e, h.2⟩
  · have : ∀ i < 2, ∀ j < 2, (square 2).g.x.getD j 0 - max 2 2 / 2 ≤ (cellBox (square 2).g true i j).minx ∧
      (cellBox (square 2).g true i j).maxx ≤ (square 2).g.x.getD j 0 + max 2 2 / 2 ∧
      (square 2).g.y.getD i 0 - max 2 2 / 2 ≤ (cellBox (square 2).g true i j).miny ∧
      (cellBox (square 2).g true i j).maxy ≤ (square 2).g.y.getD i 0 + max 2 2 / 2 := by decide +kernel
    exact fun i j hi hj => this i hi j hj

example : (chunkSource boxes { checkContains := true, allowMasked := false } (square 1) (square 1) ((0, 2), (0, 1))).toOption.isSome =
    true := by decide +kernel

example : Agree [(0, 2), (2, 4)] [[some (0, 2), none], [none, some (2, 4)]] := by
  refine ⟨by decide, ?_, ?_⟩
  · intro r hr k a b ha hb
    simp only [List.mem_cons, List.not_mem_nil, or_false] at hr
    rcases hr with rfl | rfl <;> rcases k with _ | _ | k <;> simp_all
  · intro k hk
    rcases k with _ | _ | k
    · exact ⟨_, List.mem_cons_self, _, rfl⟩
    · exact ⟨[none, some (2, 4)], by simp, _, rfl⟩
    · exact absurd hk (by simp)

/-- The first source cell is masked. -/
def maskedStrip : CGrid := { strip 0 1 8 with mask := some fun _ j => j == 0 }

example : hasEntry (stripWeights { optimized := false } maskedStrip (strip 0 1 8)) 1 1 1 = some false ∧
    hasEntry (stripWeights { optimized := false } maskedStrip (strip 0 1 8)) 2 2 1 = some true := by decide +kernel

/-- C88 (defect): the default buffer is twice the finer spacing, and the source is selected by its centres: when the
source is much coarser than the destination, source cells that overlap a destination chunk are missed, and with them
their weights (destination cell 11 lies in source cell 2). -/
theorem C88_coarse_counterexample :
    hasEntry (stripWeights {} (strip 0 10 3) (strip 0 1 12)) 11 2 1 = some false ∧
    (11, 2, 1) ∈ wholeWeights (strip 0 10 3) (strip 0 1 12) (areaWeight (strip 0 10 3) (strip 0 1 12)) := by
  decide +kernel

/-- C88 (defect): the spacing is that of the absolute coordinates: two source cells with centres -1/2 and 1/2 have the
spacing zero, and so the default buffer is zero; the weight of a pair that overlaps is lost. -/
theorem C88_signed_counterexample :
    bufferValue {} (strip (-1) 1 2).g (strip (-3 / 4) (1 / 2) 4).g = 0 ∧
    hasEntry (stripWeights {} (strip (-1) 1 2) (strip (-3 / 4) (1 / 2) 4)) 2 2 (1 / 4) = some false ∧
    (2, 2, 1 / 4) ∈ wholeWeights (strip (-1) 1 2) (strip (-3 / 4) (1 / 2) 4)
      (areaWeight (strip (-1) 1 2) (strip (-3 / 4) (1 / 2) 4)) := by
  decide +kernel

/-- C88 (defect): the optimized selection drops the mask of the source: the merged file has weights from a masked cell. -/
theorem C88_mask_counterexample :
    hasEntry (stripWeights {} maskedStrip (strip 0 1 8)) 1 1 1 = some true ∧
    (1, 1, 1) ∉ wholeWeights maskedStrip (strip 0 1 8) (areaWeight maskedStrip (strip 0 1 8)) := by
  decide +kernel

/-- C88 (defect): a destination chunk outside of the source stops the run, although the other chunk has weights. -/
theorem C88_outside_counterexample :
    stripWeights {} (strip 0 1 2) (strip 0 1 8) = .error .emptySubset ∧
    (1, 1, 1) ∈ wholeWeights (strip 0 1 2) (strip 0 1 8) (areaWeight (strip 0 1 2) (strip 0 1 8)) := by
  constructor <;> decide +kernel

/-- C88 (defect): a file name template without a place for the number is accepted; the weights of the last chunk are then
read for every chunk. -/
theorem C88_template_counterexample :
    hasEntry (chunkedWeights boxes {} (strip 0 1 8) (strip 0 1 8) 1 2 (areaWeight (strip 0 1 8) (strip 0 1 8)) fun _ => 0)
      1 3 1 = some true ∧
    (1, 3, 1) ∉ wholeWeights (strip 0 1 8) (strip 0 1 8) (areaWeight (strip 0 1 8) (strip 0 1 8)) := by
  decide +kernel

/-- C88 (defect): process zero has no part of the second destination chunk, but another process has; the source slices
are gathered and the destination slices are not, so that the index file cannot be written. -/
theorem C88_rank_counterexample :
    indexBounds [[some (0, 2), none], [none, some (2, 4)]] [[some (0, 2), none], [some (0, 2), some (2, 4)]] =
      (.error .typeError : Res (List (Nat × Nat) × List (Nat × Nat))) ∧
    indexBounds [[some (0, 2), none], [none, some (2, 4)]] [[some (0, 2), some (2, 4)], [none, some (2, 4)]] =
      .ok ([(0, 2), (2, 4)], [(0, 2), (2, 4)]) := by
  decide

end Ocgis.Props
