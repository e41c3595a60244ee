import Verif.Spec.ChunkFlow
import Verif.Spec.GridChunk
import Verif.Proofs.Range
import Mathlib.Tactic.Linarith
import Mathlib.Algebra.Order.Field.Rat
/-!
# Lemmas about chunked weights
-/
namespace Ocgis.ChunkFlow
open Ocgis.Coords (Grid1)
open Ocgis.Select (Box cellBox hint)
open Ocgis.GeomSelect (Shapely Rect gridSubset anyTrue)
open Ocgis.GridChunk (Bounds WeightFile Merged ChunkMap dstSlices merge)
open Ocgis.Spec (InChunk numberInChunk numberInGrid Means allWeights SameLength ChunksInside)

theorem mem_cells (b : Bounds) (c : Nat × Nat) : c ∈ cells b ↔ InChunk b c.1 c.2 := by
  unfold cells InChunk
  simp only [List.mem_flatMap, List.mem_map, mem_rangeFrom]
  constructor
  · rintro ⟨i, hi, j, hj, rfl⟩
    exact ⟨hi.1, hi.2, hj.1, hj.2⟩
  · rintro ⟨h1, h2, h3, h4⟩
    exact ⟨c.1, ⟨h1, h2⟩, c.2, ⟨h3, h4⟩, rfl⟩

theorem rangeFrom_nodup (a b : Nat) : (rangeFrom a b).Nodup := by
  unfold rangeFrom
  exact List.nodup_range'

theorem cells_nodup (b : Bounds) : (cells b).Nodup := by
  unfold cells List.Nodup
  rw [List.pairwise_flatMap]
  constructor
  · intro i _
    rw [List.pairwise_map]
    exact (rangeFrom_nodup _ _).imp fun h e => h (by simpa using e)
  · refine (rangeFrom_nodup _ _).imp ?_
    intro i i' h x hx y hy e
    simp only [List.mem_map] at hx hy
    obtain ⟨j, _, rfl⟩ := hx
    obtain ⟨j', _, e'⟩ := hy
    subst e
    exact h (by simpa using (congrArg Prod.fst e').symm)

/-- The cells of chunks that tile a grid are the cells of the grid. -/
theorem tiles_perm (bs : List Bounds) (n m : Nat) (hin : ∀ b ∈ bs, b.1.2 ≤ n ∧ b.2.2 ≤ m)
    (h : ∀ y x, y < n → x < m → ∃ (k : Nat) (b : Bounds), bs[k]? = some b ∧ InChunk b y x ∧
      ∀ (k' : Nat) (b' : Bounds), bs[k']? = some b' → InChunk b' y x → k' = k) :
    (bs.flatMap cells).Perm (cells ((0, n), (0, m))) := by
  refine (List.perm_ext_iff_of_nodup ?_ (cells_nodup _)).mpr ?_
  · unfold List.Nodup
    rw [List.pairwise_flatMap]
    refine ⟨fun b _ => cells_nodup b, ?_⟩
    rw [List.pairwise_iff_getElem]
    intro i j hi hj hij x hx y hy e
    subst e
    rw [mem_cells] at hx hy
    have hb := hin _ (List.getElem_mem hi)
    obtain ⟨k, b, _, _, hu⟩ := h x.1 x.2 (Nat.lt_of_lt_of_le hx.2.1 hb.1) (Nat.lt_of_lt_of_le hx.2.2.2 hb.2)
    have h1 := hu i _ (List.getElem?_eq_getElem hi) hx
    have h2 := hu j _ (List.getElem?_eq_getElem hj) hy
    omega
  · intro c
    rw [mem_cells, List.mem_flatMap]
    constructor
    · rintro ⟨b, hb, hc⟩
      rw [mem_cells] at hc
      have := hin b hb
      unfold InChunk at *
      simp only
      omega
    · intro hc
      obtain ⟨k, b, hk, hb, _⟩ := h c.1 c.2 hc.2.1 hc.2.2.2
      exact ⟨b, List.mem_of_getElem? hk, (mem_cells _ _).mpr hb⟩

theorem rangeFrom_split (a b n : Nat) (h : a ≤ b) (hb : b ≤ n) :
    rangeFrom 0 n = rangeFrom 0 a ++ rangeFrom a b ++ rangeFrom b n := by
  unfold rangeFrom
  have e1 : n - 0 = a + ((b - a) + (n - b)) := by omega
  rw [e1, ← List.range'_append_1, ← List.range'_append_1, List.append_assoc]
  simp [Nat.add_sub_cancel' h]

theorem flatMap_range_part {β : Type} (g : Nat → List β) (a b n : Nat) (h : a ≤ b) (hb : b ≤ n)
    (hg : ∀ i, i < n → ¬ (a ≤ i ∧ i < b) → g i = []) : (rangeFrom 0 n).flatMap g = (rangeFrom a b).flatMap g := by
  have nil : ∀ lo hi, (∀ i, lo ≤ i → i < hi → g i = []) → (rangeFrom lo hi).flatMap g = [] := by
    intro lo hi hh
    rw [List.flatMap_eq_nil_iff]
    intro i hi'
    rw [mem_rangeFrom] at hi'
    exact hh i hi'.1 hi'.2
  rw [rangeFrom_split a b n h hb, List.flatMap_append, List.flatMap_append,
    nil 0 a (fun i _ h2 => hg i (by omega) (by omega)), nil b n (fun i h1 h2 => hg i h2 (by omega))]
  simp

theorem flatMap_same {α β : Type} (l : List α) (f g : α → List β) (h : ∀ a ∈ l, f a = g a) : l.flatMap f = l.flatMap g := by
  induction l with
  | nil => rfl
  | cons a l ih => rw [List.flatMap_cons, List.flatMap_cons, h a (by simp), ih fun b hb => h b (by simp [hb])]

/-- A slice gives what the whole gives, when outside of it there is nothing. -/
theorem cells_part {β : Type} (f : Nat × Nat → Option β) (b : Bounds) (n m : Nat) (h1 : b.1.1 ≤ b.1.2 ∧ b.1.2 ≤ n)
    (h2 : b.2.1 ≤ b.2.2 ∧ b.2.2 ≤ m) (hf : ∀ c, c.1 < n → c.2 < m → ¬ InChunk b c.1 c.2 → f c = none) :
    (cells ((0, n), (0, m))).filterMap f = (cells b).filterMap f := by
  have e : ∀ b : Bounds, (cells b).filterMap f =
      (rangeFrom b.1.1 b.1.2).flatMap fun i => (rangeFrom b.2.1 b.2.2).flatMap fun j => (f (i, j)).toList := by
    intro b
    unfold cells
    rw [List.filterMap_flatMap]
    congr 1
    funext i
    rw [List.filterMap_map]
    induction rangeFrom b.2.1 b.2.2 with
    | nil => rfl
    | cons j js ih =>
      rw [List.filterMap_cons, List.flatMap_cons, ← ih]
      simp only [Function.comp]
      cases f (i, j) <;> rfl
  rw [e, e]
  simp only
  rw [flatMap_range_part _ b.1.1 b.1.2 n h1.1 h1.2]
  · apply flatMap_same
    intro i hi
    rw [mem_rangeFrom] at hi
    rw [flatMap_range_part _ b.2.1 b.2.2 m h2.1 h2.2]
    intro j hj hnj
    rw [hf (i, j) (by simp only; omega) hj (by unfold InChunk; simp only; omega)]
    rfl
  · intro i hi hni
    rw [List.flatMap_eq_nil_iff]
    intro j hj
    rw [mem_rangeFrom] at hj
    rw [hf (i, j) hi hj.2 (by unfold InChunk; simp only; omega)]
    rfl

/-! ## The files -/

/-- The pairs of cells a weight file lists. -/
def pairs (w : Nat × Nat → Nat × Nat → Rat) (srcSlice : Bounds) (srcMask : Nat × Nat → Bool) (dstSlice : Bounds)
    (dstMask : Nat × Nat → Bool) : List ((Nat × Nat) × (Nat × Nat)) :=
  (cells dstSlice).flatMap fun d =>
    if dstMask d then [] else
      (cells srcSlice).filterMap fun c => if srcMask c || w c d == 0 then none else some (d, c)

theorem filterMap_same {α β : Type} (l : List α) (f g : α → Option β) (h : ∀ a ∈ l, f a = g a) :
    l.filterMap f = l.filterMap g := by
  induction l with
  | nil => rfl
  | cons a l ih => rw [List.filterMap_cons, List.filterMap_cons, h a (by simp), ih fun b hb => h b (by simp [hb])]

/-- A chunk whose source slice has what it needs lists the pairs that the whole lists for its cells. -/
theorem pairs_eq (w : Nat × Nat → Nat × Nat → Rat) (sb : Bounds) (om sm : Nat × Nat → Bool) (b : Bounds)
    (dm : Nat × Nat → Bool) (n m : Nat) (hr : sb.1.1 ≤ sb.1.2 ∧ sb.1.2 ≤ n) (hc : sb.2.1 ≤ sb.2.2 ∧ sb.2.2 ≤ m)
    (hwt : ∀ c d : Nat × Nat, c.1 < n → c.2 < m → InChunk b d.1 d.2 → w c d ≠ 0 →
      (sm c = false ↔ InChunk sb c.1 c.2 ∧ om c = false)) :
    pairs w sb om b dm = (cells b).flatMap fun d => if dm d then [] else
      (cells ((0, n), (0, m))).filterMap fun c => if sm c || w c d == 0 then none else some (d, c) := by
  apply flatMap_same
  intro d hd
  rw [mem_cells] at hd
  split
  · rfl
  · rw [cells_part _ sb n m hr hc]
    · apply filterMap_same
      intro c hc'
      rw [mem_cells] at hc'
      by_cases h0 : w c d = 0
      · simp [h0]
      · have hlt : c.1 < n ∧ c.2 < m := ⟨Nat.lt_of_lt_of_le hc'.2.1 hr.2, Nat.lt_of_lt_of_le hc'.2.2.2 hc.2⟩
        have := hwt c d hlt.1 hlt.2 hd h0
        cases h1 : om c <;> cases h2 : sm c <;> simp_all
    · intro c h1 h2 h3
      by_cases h0 : w c d = 0
      · simp [h0]
      · have := hwt c d h1 h2 hd h0
        cases h4 : sm c <;> simp_all

theorem fileOf_eq (w : Nat × Nat → Nat × Nat → Rat) (sb : Bounds) (sm : Nat × Nat → Bool) (db : Bounds)
    (dm : Nat × Nat → Bool) :
    fileOf w sb sm db dm = ⟨(pairs w sb sm db dm).map fun p => numberInChunk db p.1.1 p.1.2,
      (pairs w sb sm db dm).map fun p => numberInChunk sb p.2.1 p.2.2,
      (pairs w sb sm db dm).map fun p => w p.2 p.1⟩ := by
  have key : ((cells db).flatMap fun d => if dm d then [] else (cells sb).filterMap fun c =>
        if sm c || w c d == 0 then none else
          some (numberInChunk db d.1 d.2, numberInChunk sb c.1 c.2, w c d)) =
      (pairs w sb sm db dm).map fun p => (numberInChunk db p.1.1 p.1.2, numberInChunk sb p.2.1 p.2.2, w p.2 p.1) := by
    unfold pairs
    rw [List.map_flatMap]
    congr 1
    funext d
    split
    · rfl
    · rw [List.map_filterMap]
      congr 1
      funext c
      split <;> rfl
  unfold numberInChunk at key
  unfold fileOf
  simp only
  rw [key]
  simp only [List.map_map]
  rfl

theorem pairs_mem {w : Nat × Nat → Nat × Nat → Rat} {sb : Bounds} {sm : Nat × Nat → Bool} {db : Bounds}
    {dm : Nat × Nat → Bool} {p : (Nat × Nat) × (Nat × Nat)} (h : p ∈ pairs w sb sm db dm) :
    InChunk db p.1.1 p.1.2 ∧ InChunk sb p.2.1 p.2.2 := by
  unfold pairs at h
  rw [List.mem_flatMap] at h
  obtain ⟨d, hd, h⟩ := h
  split at h
  · simp at h
  · rw [List.mem_filterMap] at h
    obtain ⟨c, hc, h⟩ := h
    split at h
    · cases h
    · simp only [Option.some.injEq] at h
      subst h
      exact ⟨(mem_cells _ _).mp hd, (mem_cells _ _).mp hc⟩

theorem zip3_map {α β γ δ : Type} (l : List α) (f : α → β) (g : α → γ) (h : α → δ) :
    (l.map f).zip ((l.map g).zip (l.map h)) = l.map fun a => (f a, g a, h a) := by
  rw [List.zip_map', List.zip_map']

/-- The loop writes one file for each chunk, and records its slices. -/
theorem writeLoop_spec {N : Type} [DecidableEq N] (s : Shapely Box) (o : Options) (src dst : CGrid)
    (w : Nat × Nat → Nat × Nat → Rat) (name : Nat → N) (hname : ∀ i j, name i = name j → i = j)
    (out : Bounds → GeomSelect.GridOut Box) :
    ∀ (bs : List Bounds) (ctr : Nat) (store : Store N), (∀ b ∈ bs, chunkSource s o src dst b = .ok (out b)) →
      ∃ store', writeLoop s o src dst w name ctr bs store =
          .ok (⟨bs.map fun b => bounds (out b).slice, bs, (List.range' ctr bs.length).map name⟩, store') ∧
        (∀ (k : Nat) (b : Bounds), bs[k]? = some b → store'.lookup (name (ctr + k)) =
          some (fileOf w (bounds (out b).slice) (outMask (out b)) b fun c => dst.masked c.1 c.2)) ∧
        ∀ i, i < ctr → store'.lookup (name i) = store.lookup (name i) := by
  intro bs
  induction bs with
  | nil =>
    intro ctr store _
    exact ⟨store, rfl, by simp, fun _ _ => rfl⟩
  | cons b bs ih =>
    intro ctr store h
    obtain ⟨store', h1, h2, h3⟩ := ih (ctr + 1)
      ((name ctr, fileOf w (bounds (out b).slice) (outMask (out b)) b fun c => dst.masked c.1 c.2) :: store)
      (fun b' hb' => h b' (by simp [hb']))
    refine ⟨store', ?_, ?_, ?_⟩
    · rw [writeLoop, h b (by simp)]
      show (do let (ix, store) ← writeLoop s o src dst w name (ctr + 1) bs _; _) = _
      rw [h1]
      simp [bind, Except.bind, List.range'_succ]
    · intro k b' hk
      cases k with
      | zero =>
        simp only [List.getElem?_cons_zero, Option.some.injEq] at hk
        subst hk
        rw [Nat.add_zero, h3 ctr (by omega)]
        simp
      | succ k =>
        rw [show ctr + (k + 1) = ctr + 1 + k by omega]
        exact h2 k b' (by simpa using hk)
    · intro i hi
      rw [h3 i (by omega), List.lookup_cons]
      have hne : (name i == name ctr) = false := by
        rw [beq_eq_false_iff_ne]
        intro e
        have := hname _ _ e
        omega
      rw [hne]

theorem files_eq {N : Type} [DecidableEq N] (name : Nat → N) (store : Store N) (bs : List Bounds) (F : Bounds → WeightFile)
    (ctr : Nat) (h : ∀ (k : Nat) (b : Bounds), bs[k]? = some b → store.lookup (name (ctr + k)) = some (F b)) :
    (((List.range' ctr bs.length).map name).map fun n => store.lookup n) = bs.map fun b => some (F b) := by
  apply List.ext_getElem?
  intro k
  simp only [List.getElem?_map]
  by_cases hk : k < bs.length
  · rw [List.getElem?_range' (by omega), List.getElem?_eq_getElem hk]
    simp only [Option.map_some, Nat.one_mul, Option.some.injEq]
    exact h k _ (List.getElem?_eq_getElem hk)
  · rw [List.getElem?_eq_none (by simpa using hk), List.getElem?_eq_none (by simpa using hk)]
    rfl

/-- All weights of the files, as pairs of cells with the number of their chunk. -/
def tagged (bs : List Bounds) (P : Bounds → List ((Nat × Nat) × (Nat × Nat))) :
    List ((Bounds × Nat) × ((Nat × Nat) × (Nat × Nat))) :=
  bs.zipIdx.flatMap fun bi => (P bi.1).map fun p => (bi, p)

theorem allWeights_eq (bs : List Bounds) (F : Bounds → WeightFile) (P : Bounds → List ((Nat × Nat) × (Nat × Nat)))
    (S : Bounds → Bounds) (w : Nat × Nat → Nat × Nat → Rat)
    (hF : ∀ b, F b = ⟨(P b).map fun p => numberInChunk b p.1.1 p.1.2, (P b).map fun p => numberInChunk (S b) p.2.1 p.2.2,
      (P b).map fun p => w p.2 p.1⟩) :
    allWeights (bs.map fun b => some (F b)) = (tagged bs P).map fun t =>
      (t.1.2, numberInChunk t.1.1 t.2.1.1 t.2.1.2, numberInChunk (S t.1.1) t.2.2.1 t.2.2.2, w t.2.2 t.2.1) := by
  unfold allWeights tagged
  rw [List.zipIdx_map, List.flatMap_map, List.map_flatMap]
  congr 1
  funext bi
  obtain ⟨b, i⟩ := bi
  simp only [Prod.map, id]
  rw [hF b]
  simp only [zip3_map, List.map_map]
  rfl

theorem tagged_mem {bs : List Bounds} {P : Bounds → List ((Nat × Nat) × (Nat × Nat))} {t}
    (h : t ∈ tagged bs P) : bs[t.1.2]? = some t.1.1 ∧ t.2 ∈ P t.1.1 := by
  unfold tagged at h
  rw [List.mem_flatMap] at h
  obtain ⟨bi, hb, h⟩ := h
  rw [List.mem_map] at h
  obtain ⟨p, hp, rfl⟩ := h
  exact ⟨by simpa using List.mem_zipIdx_iff_getElem?.mp hb, hp⟩

theorem tagged_drop {β : Type} (bs : List Bounds) (P : Bounds → List ((Nat × Nat) × (Nat × Nat)))
    (f : (Nat × Nat) × (Nat × Nat) → β) : ((tagged bs P).map fun t => f t.2) = (bs.flatMap P).map f := by
  unfold tagged
  rw [List.map_flatMap, List.map_flatMap]
  have : ∀ (bs : List Bounds) (n : Nat), ((bs.zipIdx n).flatMap fun bi => ((P bi.1).map fun p => (bi, p)).map fun t => f t.2)
      = bs.flatMap fun b => (P b).map f := by
    intro bs
    induction bs with
    | nil => intro n; rfl
    | cons b bs ih =>
      intro n
      rw [List.zipIdx_cons, List.flatMap_cons, List.flatMap_cons, ih]
      simp only [List.map_map]
      rfl
  exact this bs 0

/-! ## Extents -/

theorem foldl_min_le : ∀ (l : List Rat) (a : Rat), l.foldl min a ≤ a ∧ ∀ x ∈ l, l.foldl min a ≤ x
  | [], a => ⟨le_refl _, by simp⟩
  | b :: l, a => by
    obtain ⟨h1, h2⟩ := foldl_min_le l (min a b)
    rw [List.foldl_cons]
    refine ⟨le_trans h1 (min_le_left _ _), ?_⟩
    intro x hx
    rcases List.mem_cons.mp hx with rfl | hx
    · exact le_trans h1 (min_le_right _ _)
    · exact h2 x hx

theorem le_foldl_max : ∀ (l : List Rat) (a : Rat), a ≤ l.foldl max a ∧ ∀ x ∈ l, x ≤ l.foldl max a
  | [], a => ⟨le_refl _, by simp⟩
  | b :: l, a => by
    obtain ⟨h1, h2⟩ := le_foldl_max l (max a b)
    rw [List.foldl_cons]
    refine ⟨le_trans (le_max_left _ _) h1, ?_⟩
    intro x hx
    rcases List.mem_cons.mp hx with rfl | hx
    · exact le_trans (le_max_right _ _) h1
    · exact h2 x hx

theorem smallest_spec (l : List Rat) (x : Rat) (hx : x ∈ l) : ∃ m, smallest l = some m ∧ ∀ y ∈ l, m ≤ y := by
  cases l with
  | nil => simp at hx
  | cons a l =>
    obtain ⟨h1, h2⟩ := foldl_min_le l a
    refine ⟨_, rfl, ?_⟩
    intro y hy
    rcases List.mem_cons.mp hy with rfl | hy
    · exact h1
    · exact h2 y hy

theorem largest_spec (l : List Rat) (x : Rat) (hx : x ∈ l) : ∃ m, largest l = some m ∧ ∀ y ∈ l, y ≤ m := by
  cases l with
  | nil => simp at hx
  | cons a l =>
    obtain ⟨h1, h2⟩ := le_foldl_max l a
    refine ⟨_, rfl, ?_⟩
    intro y hy
    rcases List.mem_cons.mp hy with rfl | hy
    · exact h1
    · exact h2 y hy

theorem mem_part {α : Type} (l : List α) (a b j : Nat) (d : α) (h1 : a ≤ j) (h2 : j < b) (h3 : j < l.length) :
    l.getD j d ∈ part l a b := by
  unfold part
  rw [List.mem_iff_getElem?]
  refine ⟨j - a, ?_⟩
  rw [List.getElem?_take_of_lt (by omega), List.getElem?_drop, show a + (j - a) = j by omega,
    List.getElem?_eq_getElem h3, List.getD_eq_getElem?_getD, List.getElem?_eq_getElem h3]
  rfl

/-- The extent of a chunk encloses its cells. -/
theorem extent_spec (c : CGrid) (hb : Bounded c) (b : Bounds) (hin : b.1.2 ≤ c.ny ∧ b.2.2 ≤ c.nx)
    (hne : ∃ i j, InChunk b i j) :
    ∃ e, extent c b = .ok e ∧ ∀ i j, InChunk b i j →
      e.minx ≤ (cellBox c.g true i j).minx ∧ (cellBox c.g true i j).maxx ≤ e.maxx ∧
      e.miny ≤ (cellBox c.g true i j).miny ∧ (cellBox c.g true i j).maxy ≤ e.maxy := by
  have hmx : ∀ j, b.2.1 ≤ j → j < b.2.2 → (c.g.xb.getD j (0, 0)).1 ∈ ((part c.g.xb b.2.1 b.2.2).flatMap fun p => [p.1, p.2]) ∧
      (c.g.xb.getD j (0, 0)).2 ∈ ((part c.g.xb b.2.1 b.2.2).flatMap fun p => [p.1, p.2]) := by
    intro j h1 h2
    have hm := mem_part c.g.xb b.2.1 b.2.2 j (0, 0) h1 h2 (by rw [hb.x]; exact Nat.lt_of_lt_of_le h2 hin.2)
    exact ⟨List.mem_flatMap.mpr ⟨_, hm, by simp⟩, List.mem_flatMap.mpr ⟨_, hm, by simp⟩⟩
  have hmy : ∀ j, b.1.1 ≤ j → j < b.1.2 → (c.g.yb.getD j (0, 0)).1 ∈ ((part c.g.yb b.1.1 b.1.2).flatMap fun p => [p.1, p.2]) ∧
      (c.g.yb.getD j (0, 0)).2 ∈ ((part c.g.yb b.1.1 b.1.2).flatMap fun p => [p.1, p.2]) := by
    intro j h1 h2
    have hm := mem_part c.g.yb b.1.1 b.1.2 j (0, 0) h1 h2 (by rw [hb.y]; exact Nat.lt_of_lt_of_le h2 hin.1)
    exact ⟨List.mem_flatMap.mpr ⟨_, hm, by simp⟩, List.mem_flatMap.mpr ⟨_, hm, by simp⟩⟩
  obtain ⟨i0, j0, hc⟩ := hne
  obtain ⟨x0, ex0, hx0⟩ := smallest_spec _ _ (hmx j0 hc.2.2.1 hc.2.2.2).1
  obtain ⟨x1, ex1, hx1⟩ := largest_spec _ _ (hmx j0 hc.2.2.1 hc.2.2.2).1
  obtain ⟨y0, ey0, hy0⟩ := smallest_spec _ _ (hmy i0 hc.1 hc.2.1).1
  obtain ⟨y1, ey1, hy1⟩ := largest_spec _ _ (hmy i0 hc.1 hc.2.1).1
  refine ⟨⟨x0, y0, x1, y1⟩, ?_, ?_⟩
  · unfold extent
    simp only [hb.has, if_true]
    rw [ex0, ex1, ey0, ey1]
  · intro i j h
    have hx := hmx j h.2.2.1 h.2.2.2
    have hy := hmy i h.1 h.2.1
    unfold cellBox
    simp only [if_true]
    exact ⟨le_min (hx0 _ hx.1) (hx0 _ hx.2), max_le (hx1 _ hx.1) (hx1 _ hx.2),
      le_min (hy0 _ hy.1) (hy0 _ hy.2), max_le (hy1 _ hy.1) (hy1 _ hy.2)⟩

/-- The centre of a cell that overlaps something inside the box lies in the box grown by the reach of the cell. -/
theorem hint_of_overlap (src : CGrid) (r : Rat) (hr : Reach src r) (e : Box) (d : Box)
    (hd : e.minx ≤ d.minx ∧ d.maxx ≤ e.maxx ∧ e.miny ≤ d.miny ∧ d.maxy ≤ e.maxy) (i j : Nat) (hi : i < src.ny)
    (hj : j < src.nx) (h : Overlap (cellBox src.g true i j) d) (b : Rat) (hb : r ≤ b) :
    hint src.g (e.expand b) i j = true := by
  obtain ⟨h1, h2, h3, h4⟩ := hr i j hi hj
  obtain ⟨o1, o2, o3, o4⟩ := h
  obtain ⟨d1, d2, d3, d4⟩ := hd
  unfold hint Box.expand
  simp only [Bool.and_eq_true, decide_eq_true_eq]
  refine ⟨⟨?_, ?_⟩, ?_, ?_⟩ <;> linarith

/-! ## The default buffer -/

theorem absR_nonneg_eq {x : Rat} (h : 0 ≤ x) : Select.absR x = x := by
  unfold Select.absR
  rw [if_neg (not_lt.mpr h)]

theorem even_head {h : Rat} {a : Rat} {l : List Rat} (he : Even h (a :: l)) : 0 ≤ a := by
  cases l with
  | nil => exact he
  | cons b l => exact he.1

theorem even_nonneg {h : Rat} : ∀ (l : List Rat), Even h l → ∀ x ∈ l, 0 ≤ x
  | [], _, x, hx => by simp at hx
  | [a], he, x, hx => by
    simp only [List.mem_singleton] at hx
    subst hx
    exact he
  | a :: b :: l, he, x, hx => by
    rcases List.mem_cons.mp hx with rfl | hx
    · exact he.1
    · exact even_nonneg (b :: l) he.2.2 x hx

theorem map_absR (l : List Rat) (h : ∀ x ∈ l, 0 ≤ x) : l.map Select.absR = l := by
  conv => rhs; rw [← List.map_id l]
  exact List.map_congr_left fun x hx => absR_nonneg_eq (h x hx)

theorem even_take {h : Rat} : ∀ (n : Nat) (l : List Rat), Even h l → Even h (l.take n)
  | 0, l, _ => by simp [Even]
  | n + 1, [], _ => by simp [Even]
  | n + 1, [a], he => by simpa using he
  | 1, a :: b :: l, he => by
    simp only [List.take_succ_cons, List.take_zero]
    exact he.1
  | n + 2, a :: b :: l, he => by
    have := even_take (n + 1) (b :: l) he.2.2
    simp only [List.take_succ_cons] at this ⊢
    exact ⟨he.1, he.2.1, this⟩

theorem even_diffs {h : Rat} (hh : 0 ≤ h) : ∀ (l : List Rat), Even h l →
    ((Coords.diffs l).map Select.absR) = List.replicate (l.length - 1) h
  | [], _ => rfl
  | [a], _ => rfl
  | a :: b :: l, he => by
    rw [Coords.diffs, List.map_cons, even_diffs hh (b :: l) he.2.2]
    have : Select.absR (b - a) = h := by
      rcases he.2.1 with e | e
      · rw [e, absR_nonneg_eq hh]
      · unfold Select.absR
        split <;> linarith
    rw [this]
    simp [List.replicate_succ]

theorem sum_replicate (n : Nat) (h : Rat) : (List.replicate n h).sum = n * h := by
  induction n with
  | zero => simp
  | succ n ih =>
    rw [List.replicate_succ, List.sum_cons, ih]
    push_cast
    linarith

/-- The resolution of evenly spaced coordinates that are not negative. -/
theorem even_resolution {h : Rat} (hh : 0 ≤ h) (l : List Rat) (he : Even h l) (hl : 2 ≤ l.length) :
    Select.arrayResolution limit l = h := by
  unfold Select.arrayResolution
  rw [if_neg (by omega), map_absR _ (even_nonneg _ (even_take limit l he)), even_diffs hh _ (even_take limit l he)]
  unfold Coords.mean
  have hlen : (l.take limit).length - 1 ≠ 0 := by
    rw [List.length_take]
    unfold limit
    omega
  rw [sum_replicate, List.length_replicate]
  have : (((l.take limit).length - 1 : Nat) : Rat) ≠ 0 := by exact_mod_cast hlen
  rw [mul_comm, mul_div_assoc, div_self this, mul_one]

/-- Boxes with a common area overlap. -/
theorem overlap_of_area (a b : Box) (h : commonArea a b ≠ 0) : Overlap a b := by
  unfold commonArea at h
  have h1 : 0 < min a.maxx b.maxx - max a.minx b.minx := by
    by_contra hn
    exact h (by rw [max_eq_left (not_lt.mp hn), zero_mul])
  have h2 : 0 < min a.maxy b.maxy - max a.miny b.miny := by
    by_contra hn
    exact h (by rw [max_eq_left (not_lt.mp hn), mul_zero])
  have l1 := min_le_left a.maxx b.maxx
  have l2 := min_le_right a.maxx b.maxx
  have l3 := le_max_left a.minx b.minx
  have l4 := le_max_right a.minx b.minx
  have m1 := min_le_left a.maxy b.maxy
  have m2 := min_le_right a.maxy b.maxy
  have m3 := le_max_left a.miny b.miny
  have m4 := le_max_right a.miny b.miny
  refine ⟨?_, ?_, ?_, ?_⟩ <;> linarith

theorem commonArea_inside (a b : Box) (h : a.minx ≤ b.minx ∧ b.maxx ≤ a.maxx ∧ a.miny ≤ b.miny ∧ b.maxy ≤ a.maxy) :
    commonArea a b = commonArea b b := by
  unfold commonArea
  rw [min_eq_right h.2.1, max_eq_right h.1, min_eq_right h.2.2.2, max_eq_right h.2.2.1, min_self, max_self, min_self,
    max_self]

/-! ## The index file -/

theorem recordBounds_some {α : Type} (l : List α) : recordBounds (l.map some) = .ok l := by
  induction l with
  | nil => rfl
  | cons a l ih =>
    rw [List.map_cons, recordBounds, ih]
    rfl

end Ocgis.ChunkFlow
