import Verif.Proofs.Distribution
import Verif.Model.ScatterGather
namespace Ocgis
open Spec

theorem assignSlice_append {α : Type _} (pre part post : List α) (lo hi : Nat) (h1 : lo = pre.length)
    (h2 : hi = lo + part.length) (h3 : part.length ≤ post.length) :
    assignSlice (pre ++ post) lo hi part = .ok (pre ++ part ++ post.drop part.length) := by
  unfold assignSlice
  simp only [List.length_append]
  have e1 : min lo (pre.length + post.length) = pre.length := by omega
  have e2 : min hi (pre.length + post.length) = pre.length + part.length := by omega
  rw [e1, e2, if_neg (by omega), Nat.max_eq_right (by omega)]
  rw [List.take_left, ← List.drop_drop, List.drop_left]

/-- Consecutive pieces, starting at position `s`. -/
def Tiles {α β : Type _} (lo hi : β → Nat) (part : β → List α) : Nat → List β → Prop
  | _, [] => True
  | s, b :: bs => lo b = s ∧ hi b = s + (part b).length ∧ Tiles lo hi part (s + (part b).length) bs

theorem foldlM_assign {α β : Type _} (lo hi : β → Nat) (part : β → List α) (bs : List β) :
    ∀ pre post : List α, Tiles lo hi part pre.length bs → (bs.flatMap part).length = post.length →
      bs.foldlM (fun fill b => assignSlice fill (lo b) (hi b) (part b)) (pre ++ post)
        = .ok (pre ++ bs.flatMap part) := by
  induction bs with
  | nil =>
    intro pre post _ hl
    have : post = [] := List.eq_nil_of_length_eq_zero (by simpa using hl.symm)
    subst this
    rfl
  | cons b bs ih =>
    intro pre post ht hl
    obtain ⟨h1, h2, h3⟩ := ht
    rw [List.flatMap_cons, List.length_append] at hl
    rw [List.foldlM_cons, assignSlice_append pre (part b) post _ _ h1 (by omega) (by omega)]
    simp only [bind, Except.bind]
    rw [ih (pre ++ part b) (post.drop (part b).length) (by simpa using h3)
      (by rw [List.length_drop]; omega)]
    simp [List.flatMap_cons]

namespace Mpi

theorem hgather_eq {α : Type _} (zero : α) (es : List (List α)) : hgather zero es = .ok es.flatten := by
  have key : ∀ (es : List (List α)) (pre post : List α), es.flatten.length = post.length →
      es.foldlM (fun (st : List α × Nat) e =>
        if e.length = 0 then (.ok st : Res (List α × Nat))
        else do
          let stop := st.2 + e.length
          let fill ← assignSlice st.1 st.2 stop e
          .ok (fill, stop)) (pre ++ post, pre.length)
        = .ok (pre ++ es.flatten, pre.length + es.flatten.length) := by
    intro es
    induction es with
    | nil =>
      intro pre post hl
      have : post = [] := List.eq_nil_of_length_eq_zero (by simpa using hl.symm)
      subst this
      rfl
    | cons e es ih =>
      intro pre post hl
      rw [List.flatten_cons, List.length_append] at hl
      rw [List.foldlM_cons]
      by_cases he : e.length = 0
      · have : e = [] := List.eq_nil_of_length_eq_zero he
        subst this
        simp only [List.length_nil, if_true, bind, Except.bind]
        have hi := ih pre post (by simpa using hl)
        simp only [bind, Except.bind] at hi
        rw [hi]; simp
      · simp only [if_neg he, bind, Except.bind]
        rw [assignSlice_append pre e post _ _ rfl rfl (by omega)]
        simp only
        have := ih (pre ++ e) (post.drop e.length) (by rw [List.length_drop]; omega)
        simp only [List.length_append, bind, Except.bind] at this
        rw [this]
        simp [Nat.add_assoc]
  unfold hgather
  have h := key es [] (List.replicate ((es.map List.length).sum) zero) (by simp [List.length_flatten])
  simp only [List.nil_append, List.length_nil] at h
  simp only [bind, Except.bind] at h ⊢
  rw [h]

/-- A rank's piece of a distributed dimension with `m` effective ranks. -/
structure Piece (d : Dim) (n m rank : Nat) (r : Dim) : Prop where
  name : r.name = d.name
  dist : r.dist = true
  live : rank < min n m → r.isEmpty = false
    ∧ r.boundsLocal = ((splitPoint n m rank : Int), (splitPoint n m (rank + 1) : Int))
    ∧ r.boundsGlobal = (0, (n : Int))
    ∧ r.len = (splitPoint n m (rank + 1) : Int) - splitPoint n m rank
    ∧ Aligned r ∧ (d.srcIdx = none → r.srcIdx = none) ∧ (d.srcIdx ≠ none → r.srcIdx ≠ none)
    ∧ (∀ xs, d.srcIdx = some (.fancy xs) → ∃ ys, r.srcIdx = some (.fancy ys))
    ∧ (∀ a b, d.srcIdx = some (.bounds a b) →
        r.srcIdx = some (.bounds (splitPoint n m rank + a) (splitPoint n m (rank + 1) + a)))
    ∧ sources r = ((sources d).drop (splitPoint n m rank)).take (splitPoint n m (rank + 1) - splitPoint n m rank)
  empty : ¬ rank < min n m → r.isEmpty = true ∧ r.len = 0 ∧ r.srcIdx = none
  emptyBounds : ¬ rank < min n m → r.boundsLocal = (0, 0)

theorem splitPoint_le (n m rank : Nat) (h : rank < min n m) : splitPoint n m (rank + 1) ≤ n := by
  have h1 := splitPoint_size n m (by omega)
  have h2 := splitPoint_le_of_le n m (i := rank + 1) (j := m) (by omega)
  omega

theorem splitPoint_lt (n m rank : Nat) (h : rank < min n m) :
    splitPoint n m rank < splitPoint n m (rank + 1) := by
  have h1 := splitPoint_step n m rank
  have h2 := splitPoint_mono n m rank
  by_cases hnm : m ≤ n
  · have : 1 ≤ n / m := (Nat.le_div_iff_mul_le (by omega)).2 (by omega)
    omega
  · have h3 : n / m = 0 := Nat.div_eq_of_lt (by omega)
    have h4 : n % m = n := Nat.mod_eq_of_lt (by omega)
    rw [h3, h4, if_pos (by omega)] at h1
    omega

theorem updateDistributed_ok (size minE rank : Nat) (d : Dim) (n : Nat) (hn : d.len = n)
    (hd : d.dist = true) (he : d.isEmpty = false) (hal : Aligned d) :
    ∃ r, updateDistributed size minE rank d = .ok r ∧ Piece d n (effectiveSize size minE n) rank r := by
  unfold updateDistributed
  have hn' : d.len.toNat = n := by omega
  simp only [hn', getRankBounds_eq, bind, Except.bind]
  generalize hm : effectiveSize size minE n = m
  by_cases hr : rank < min n m
  · rw [if_pos hr]
    simp only
    have hlt := splitPoint_lt n m rank hr
    have hle := splitPoint_le n m rank hr
    generalize ha : splitPoint n m rank = a at *
    generalize hb : splitPoint n m (rank + 1) = b at *
    let d' : Dim := { d with boundsGlobal? := some (0, d.len) }
    have hal' : Aligned d' := hal
    have hlen' : d'.len = n := hn
    obtain ⟨src, e1, e2, e3, e4, e5⟩ := Dim.sliceSourceIndex_inside d' (a : Int) (b : Int) hal' (by omega)
      (by omega) (by omega)
    have e1' : Dim.sliceSourceIndex (.slice ⟨some (a : Int), some (b : Int)⟩) d.srcIdx = .ok src := e1
    rw [e1']
    simp only
    have hset : Dim.setSize { d with boundsGlobal? := some (0, d.len) } ((b : Int) - a) src
        = .ok (d'.resized ((b : Int) - a) src) := Dim.setSize_ok d' _ _ e2
    rw [hset]
    refine ⟨_, rfl, rfl, hd, ?_, fun h => absurd hr h, fun h => absurd hr h⟩
    intro _
    rw [ha, hb]
    refine ⟨he, rfl, ?_, ?_, e2, e3, e4, ?_, ?_, ?_⟩
    · show (0, d.len) = (0, (n : Int)); rw [hn]
    · exact Dim.len_resized d' _ src
    · intro xs hxs
      have h6 := e1'
      unfold Dim.sliceSourceIndex at h6
      have hne : Index.slice ⟨some (a : Int), some (b : Int)⟩ ≠ Index.slice PySlice.all := by
        intro h; injection h with h; injection h with h; cases h
      rw [if_neg hne, hxs] at h6
      simp only at h6
      injection h6 with h6
      exact ⟨_, h6.symm⟩
    · intro x y hxy
      have h6 := e1'
      unfold Dim.sliceSourceIndex at h6
      have hne : Index.slice ⟨some (a : Int), some (b : Int)⟩ ≠ Index.slice PySlice.all := by
        intro h; injection h with h; injection h with h; cases h
      rw [if_neg hne, hxy] at h6
      have hyx : y - x = n := by
        unfold Aligned at hal; rw [hxy] at hal; simp only at hal; omega
      simp only at h6
      injection h6 with h6
      show src = _
      rw [← h6]
      congr 2 <;> (repeat' split) <;> omega
    · have := e5
      simp only [Int.toNat_natCast] at this
      have e : ((b : Int) - (a : Int)).toNat = b - a := by omega
      rw [e] at this
      exact this
  · rw [if_neg hr]
    simp only
    unfold Dim.convertToEmpty
    simp only [hd]
    exact ⟨_, rfl, rfl, rfl, fun h => absurd h hr, fun _ => ⟨rfl, rfl, rfl⟩, fun _ => rfl⟩

theorem mapM_ok {α β : Type _} (xs : List α) (g : α → Res β) (f : α → β)
    (h : ∀ x ∈ xs, g x = .ok (f x)) : xs.mapM g = .ok (xs.map f) := by
  induction xs with
  | nil => rfl
  | cons x xs ih =>
    rw [List.mapM_cons, h x (by simp), ih (fun y hy => h y (by simp [hy]))]
    rfl

theorem foldl_min_le (xs : List Int) : ∀ a, xs.foldl min a ≤ a ∧ ∀ x ∈ xs, xs.foldl min a ≤ x := by
  induction xs with
  | nil => intro a; simp
  | cons y ys ih =>
    intro a
    obtain ⟨h1, h2⟩ := ih (min a y)
    refine ⟨by simp only [List.foldl_cons]; omega, ?_⟩
    intro x hx
    rcases List.mem_cons.1 hx with rfl | hx
    · simp only [List.foldl_cons]; omega
    · exact h2 x hx

theorem foldl_min_mem (xs : List Int) : ∀ a, xs.foldl min a = a ∨ xs.foldl min a ∈ xs := by
  induction xs with
  | nil => intro a; simp
  | cons y ys ih =>
    intro a
    rw [List.foldl_cons]
    rcases ih (min a y) with h | h
    · rw [h]
      by_cases hay : a ≤ y
      · left; omega
      · right; rw [Int.min_eq_right (by omega)]; simp
    · right; simp [h]

theorem foldl_max_le (xs : List Int) : ∀ a, a ≤ xs.foldl max a ∧ ∀ x ∈ xs, x ≤ xs.foldl max a := by
  induction xs with
  | nil => intro a; simp
  | cons y ys ih =>
    intro a
    obtain ⟨h1, h2⟩ := ih (max a y)
    refine ⟨by simp only [List.foldl_cons]; omega, ?_⟩
    intro x hx
    rcases List.mem_cons.1 hx with rfl | hx
    · simp only [List.foldl_cons]; omega
    · exact h2 x hx

theorem foldl_max_mem (xs : List Int) : ∀ a, xs.foldl max a = a ∨ xs.foldl max a ∈ xs := by
  induction xs with
  | nil => intro a; simp
  | cons y ys ih =>
    intro a
    rw [List.foldl_cons]
    rcases ih (max a y) with h | h
    · rw [h]
      by_cases hay : y ≤ a
      · left; omega
      · right; rw [Int.max_eq_right (by omega)]; simp
    · right; simp [h]

theorem listMin_eq (xs : List Int) (m : Int) (h1 : m ∈ xs) (h2 : ∀ x ∈ xs, m ≤ x) : listMin xs = .ok m := by
  cases xs with
  | nil => simp at h1
  | cons a t =>
    show Except.ok (List.foldl min a t) = _
    congr 1
    have h3 := foldl_min_le t a
    have h4 := foldl_min_mem t a
    apply Int.le_antisymm
    · rcases List.mem_cons.1 h1 with rfl | h1
      · exact h3.1
      · exact h3.2 m h1
    · rcases h4 with h4 | h4
      · rw [h4]; exact h2 a (by simp)
      · exact h2 _ (by simp [h4])

theorem listMax_eq (xs : List Int) (m : Int) (h1 : m ∈ xs) (h2 : ∀ x ∈ xs, x ≤ m) : listMax xs = .ok m := by
  cases xs with
  | nil => simp at h1
  | cons a t =>
    show Except.ok (List.foldl max a t) = _
    congr 1
    have h3 := foldl_max_le t a
    have h4 := foldl_max_mem t a
    apply Int.le_antisymm
    · rcases h4 with h4 | h4
      · rw [h4]; exact h2 a (by simp)
      · exact h2 _ (by simp [h4])
    · rcases List.mem_cons.1 h1 with rfl | h1
      · exact h3.1
      · exact h3.2 m h1

theorem sum_pieces (f : Nat → Dim) (p : Nat → Nat) (k : Nat)
    (h : ∀ r, r < k → (f r).len = (p (r + 1) : Int) - p r) :
    (((List.range k).map f).map (·.len)).sum = (p k : Int) - p 0 := by
  induction k with
  | zero => simp
  | succ k ih =>
    rw [List.range_succ]
    simp only [List.map_append, List.map_cons, List.map_nil, List.sum_append, List.sum_cons, List.sum_nil]
    rw [ih (fun r hr => h r (by omega)), h k (by omega)]
    omega

theorem tiles_pieces {α β : Type _} (lo hi : β → Nat) (part : β → List α) (f : Nat → β) (p : Nat → Nat)
    (hp : ∀ i, p i ≤ p (i + 1)) (k : Nat) :
    ∀ j, (∀ r, j ≤ r → r < j + k → lo (f r) = p r ∧ hi (f r) = p (r + 1) ∧ (part (f r)).length = p (r + 1) - p r) →
    Tiles lo hi part (p j) ((List.range' j k).map f) := by
  induction k with
  | zero => intro j _; simp [Tiles]
  | succ k ih =>
    intro j h
    rw [List.range'_succ, List.map_cons]
    obtain ⟨h1, h2, h3⟩ := h j (by omega) (by omega)
    have := hp j
    refine ⟨h1, by omega, ?_⟩
    have e : p j + (part (f j)).length = p (j + 1) := by omega
    rw [e]
    exact ih (j + 1) (fun r hr1 hr2 => h r (by omega) (by omega))

theorem gatherSrcIdx_pieces (d : Dim) (n m : Nat) (hm : 0 < m) (hmn : m ≤ n) (hn : d.len = n) (hal : Aligned d)
    (f : Nat → Dim) (hf : ∀ r, r < m → Piece d n m r (f r)) :
    ∃ src, gatherSrcIdx ((List.range m).map f) n = .ok src
      ∧ (match src with
          | none => ([] : List Int)
          | some (.bounds a b) => intRange a b
          | some (.fancy xs) => xs) = sources d
      ∧ (match src with
          | none => True
          | some (.bounds a b) => b - a = (n : Int)
          | some (.fancy xs) => (xs.length : Int) = n) := by
  have hlast : ((List.range m).map f).getLast? = some (f (m - 1)) := by
    have : m = (m - 1) + 1 := by omega
    rw [this, List.range_succ]
    simp
  have hpl := hf (m - 1) (by omega)
  have hmin : min n m = m := by omega
  unfold gatherSrcIdx
  rw [hlast]
  simp only
  match hsrc : d.srcIdx with
  | none =>
    obtain ⟨_, _, _, _, _, h6, _⟩ := hpl.live (by omega)
    rw [h6 hsrc]
    exact ⟨none, rfl, by simp [sources, hsrc], trivial⟩
  | some (.fancy xs) =>
    obtain ⟨_, _, _, _, _, _, _, h8, _⟩ := hpl.live (by omega)
    obtain ⟨ys, hys⟩ := h8 xs hsrc
    rw [hys]
    simp only
    have hxl : xs.length = n := by
      unfold Aligned at hal; rw [hsrc] at hal; simp only at hal; omega
    have hcongr : ∀ (l : List Nat) (fill : List Int), (∀ r ∈ l, r < m) →
        (l.map f).foldlM placeSrcIdx fill
        = (l.map f).foldlM (fun (fill : List Int) part =>
            assignSlice fill part.boundsLocal.1.toNat part.boundsLocal.2.toNat (sources part)) fill := by
      intro l
      induction l with
      | nil => intro fill _; rfl
      | cons r l ih =>
        intro fill hl
        obtain ⟨_, _, _, _, _, _, _, h8, _⟩ := (hf r (hl r (by simp))).live (by rw [hmin]; exact hl r (by simp))
        obtain ⟨zs, hzs⟩ := h8 xs hsrc
        rw [List.map_cons, List.foldlM_cons, List.foldlM_cons]
        have : sources (f r) = zs := by unfold sources; rw [hzs]
        have hpl : placeSrcIdx fill (f r) = assignSlice fill (f r).boundsLocal.1.toNat (f r).boundsLocal.2.toNat zs := by
          unfold placeSrcIdx; rw [hzs]
        rw [this, hpl]
        simp only [bind, Except.bind]
        cases assignSlice fill (f r).boundsLocal.1.toNat (f r).boundsLocal.2.toNat zs with
        | error e => rfl
        | ok v => exact ih v (fun x hx => hl x (by simp [hx]))
    rw [hcongr _ _ (by simp)]
    have hsd : sources d = xs := by unfold sources; rw [hsrc]
    have hflat : ((List.range m).map f).flatMap sources = xs := by
      rw [List.flatMap_map]
      have : (List.range m).flatMap (fun r => sources (f r))
          = (List.range m).flatMap (fun i => (xs.drop (splitPoint n m i)).take (splitPoint n m (i + 1) - splitPoint n m i)) := by
        unfold List.flatMap
        congr 1
        apply List.map_congr_left
        intro r hr
        obtain ⟨_, _, _, _, _, _, _, _, _, h10⟩ := (hf r (by simpa using hr)).live (by rw [hmin]; simpa using hr)
        rw [h10, hsd]
      rw [this, flatMap_slices xs (splitPoint n m) (splitPoint_mono n m), splitPoint_zero, splitPoint_size n m hm]
      simp [← hxl]
    have ht : Tiles (fun p : Dim => p.boundsLocal.1.toNat) (fun p => p.boundsLocal.2.toNat) sources 0
        ((List.range m).map f) := by
      have := tiles_pieces (fun p : Dim => p.boundsLocal.1.toNat) (fun p => p.boundsLocal.2.toNat) sources f
        (splitPoint n m) (splitPoint_mono n m) m 0 (by
          intro r _ hr
          have hr' : r < m := by omega
          obtain ⟨_, h2, _, h4, h5, _, h7, _⟩ := (hf r hr').live (by rw [hmin]; exact hr')
          have hsl := sources_length (f r) h5 (h7 (by rw [hsrc]; simp))
          have := splitPoint_mono n m r
          rw [h2]
          refine ⟨by simp, by simp, by omega⟩)
      rw [splitPoint_zero] at this
      rw [List.range_eq_range']
      exact this
    have hfold := foldlM_assign (fun p : Dim => p.boundsLocal.1.toNat) (fun p => p.boundsLocal.2.toNat) sources
      ((List.range m).map f) [] (List.replicate ((n : Int)).toNat 0) ht
      (by rw [hflat]; simp [hxl])
    simp only [List.nil_append] at hfold
    rw [hfold, hflat]
    exact ⟨_, rfl, hsd.symm, by simp only; omega⟩
  | some (.bounds a b) =>
    obtain ⟨_, _, _, _, _, _, _, _, h9, _⟩ := hpl.live (by omega)
    rw [h9 a b hsrc]
    simp only
    have hba : b - a = n := by unfold Aligned at hal; rw [hsrc] at hal; simp only at hal; omega
    have hmap : ((List.range m).map f).mapM boundsSrcIdx
        = .ok (((List.range m).map f).map fun part : Dim => match part.srcIdx with
            | some (.bounds a b) => [a, b]
            | _ => []) := by
      apply mapM_ok
      intro x hx
      obtain ⟨r, hr, rfl⟩ := List.mem_map.1 hx
      obtain ⟨_, _, _, _, _, _, _, _, h9, _⟩ := (hf r (by simpa using hr)).live (by rw [hmin]; simpa using hr)
      unfold boundsSrcIdx
      rw [h9 a b hsrc]
    rw [hmap]
    simp only [bind, Except.bind]
    have hflat : (((List.range m).map f).map fun part : Dim => match part.srcIdx with
            | some (.bounds a b) => [a, b]
            | _ => []) = (List.range m).map fun r => [(splitPoint n m r : Int) + a, (splitPoint n m (r + 1) : Int) + a] := by
      rw [List.map_map]
      apply List.map_congr_left
      intro r hr
      obtain ⟨_, _, _, _, _, _, _, _, h9, _⟩ := (hf r (by simpa using hr)).live (by rw [hmin]; simpa using hr)
      simp only [Function.comp]
      rw [h9 a b hsrc]
    rw [hflat]
    have hmem : ∀ x, x ∈ ((List.range m).map fun r => [(splitPoint n m r : Int) + a, (splitPoint n m (r + 1) : Int) + a]).flatten
        ↔ ∃ r, r < m ∧ (x = splitPoint n m r + a ∨ x = splitPoint n m (r + 1) + a) := by
      intro x
      simp only [List.mem_flatten, List.mem_map, List.mem_range]
      constructor
      · rintro ⟨l, ⟨r, hr, rfl⟩, hx⟩
        exact ⟨r, hr, by simpa using hx⟩
      · rintro ⟨r, hr, hx⟩
        exact ⟨_, ⟨r, hr, rfl⟩, by simpa using hx⟩
    have hle : ∀ r, r ≤ m → splitPoint n m r ≤ n := by
      intro r hr
      have h1 := splitPoint_size n m hm
      have h2 := splitPoint_le_of_le n m (i := r) (j := m) hr
      omega
    have hmn' := listMin_eq _ a ((hmem a).2 ⟨0, hm, Or.inl (by rw [splitPoint_zero]; omega)⟩) (by
      intro x hx
      obtain ⟨r, _, h | h⟩ := (hmem x).1 hx <;> omega)
    have hmx' := listMax_eq _ b ((hmem b).2 ⟨m - 1, by omega, Or.inr (by
      have : m - 1 + 1 = m := by omega
      rw [this, splitPoint_size n m hm]; omega)⟩) (by
      intro x hx
      obtain ⟨r, hr, h | h⟩ := (hmem x).1 hx
      · have := hle r (by omega); omega
      · have := hle (r + 1) (by omega); omega)
    rw [hmn', hmx']
    exact ⟨_, rfl, by simp [sources, hsrc], hba⟩

theorem gather_pieces {α : Type} (d : Dim) (xs : List α) (n m : Nat) (hm : 0 < m) (hmn : m ≤ n) (hn : d.len = n)
    (hxs : xs.length = n) (hal : Aligned d)
    (f : Nat → Dim) (hf : ∀ r, r < m → Piece d n m r (f r)) :
    ∃ g, gather ((List.range m).map fun r =>
        (⟨f r, (xs.drop (splitPoint n m r)).take (splitPoint n m (r + 1) - splitPoint n m r)⟩ : Var α)) = .ok g
      ∧ g.2 = xs.map some ∧ sources g.1 = sources d ∧ g.1.len = n ∧ g.1.dist = false ∧ g.1.name = d.name := by
  have hmin : min n m = m := by omega
  unfold gather
  have hany : ((List.range m).map fun r =>
        (⟨f r, (xs.drop (splitPoint n m r)).take (splitPoint n m (r + 1) - splitPoint n m r)⟩ : Var α)).any (·.dim.isEmpty) = false := by
    rw [List.any_eq_false]
    intro x hx
    obtain ⟨r, hr, rfl⟩ := List.mem_map.1 hx
    have := ((hf r (by simpa using hr)).live (by rw [hmin]; simpa using hr)).1
    simp [this]
  rw [hany, if_neg (by simp)]
  by_cases h1 : m = 1
  · subst h1
    obtain ⟨h1, _, _, h4, _, _, _, _, _, h10⟩ := (hf 0 (by omega)).live (by omega)
    have e1 : splitPoint n 1 (0 + 1) = n := splitPoint_size n 1 (by omega)
    rw [e1, splitPoint_zero] at h4 h10
    refine ⟨_, rfl, ?_, ?_, ?_, rfl, (hf 0 (by omega)).name⟩
    · simp only
      rw [e1, splitPoint_zero]
      simp [← hxs]
    · show sources (f 0) = _
      rw [h10]
      by_cases hs : d.srcIdx = none
      · simp [sources, hs]
      · have := sources_length d hal hs
        rw [List.drop_zero, List.take_of_length_le (by omega)]
    · show (f 0).len = n
      omega
  · obtain ⟨m', rfl⟩ : ∃ m', m = m' + 2 := ⟨m - 2, by omega⟩
    obtain ⟨src, s1, s2, s3⟩ := gatherSrcIdx_pieces d n (m' + 2) hm hmn hn hal f hf
    have hsum := sum_pieces f (splitPoint n (m' + 2)) (m' + 2) (by
      intro r hr
      obtain ⟨_, _, _, h4, _⟩ := (hf r hr).live (by omega)
      exact h4)
    rw [splitPoint_size n _ hm, splitPoint_zero] at hsum
    have hrange : List.range (m' + 2) = 0 :: 1 :: List.range' 2 m' := by
      rw [List.range_eq_range', List.range'_succ, List.range'_succ]
    generalize hparts : ((List.range (m' + 2)).map fun r =>
        (⟨f r, (xs.drop (splitPoint n (m' + 2) r)).take (splitPoint n (m' + 2) (r + 1) - splitPoint n (m' + 2) r)⟩ : Var α)) = parts
    have hdims : parts.map (·.dim) = (List.range (m' + 2)).map f := by
      rw [← hparts, List.map_map]; rfl
    have hsum' : ((parts.map (·.dim)).map (·.len)).foldl (· + ·) 0 = (n : Int) := by
      rw [foldl_add_eq_sum, hdims, hsum]; omega
    have hvals : parts.flatMap (fun p => p.values.map some) = xs.map some := by
      rw [← hparts, List.flatMap_map]
      have : (List.range (m' + 2)).flatMap (fun i => ((xs.drop (splitPoint n (m' + 2) i)).take
          (splitPoint n (m' + 2) (i + 1) - splitPoint n (m' + 2) i)).map some)
          = ((List.range (m' + 2)).flatMap (fun i => (xs.drop (splitPoint n (m' + 2) i)).take
          (splitPoint n (m' + 2) (i + 1) - splitPoint n (m' + 2) i))).map some := by
        rw [List.map_flatMap]
      rw [this, flatMap_slices xs _ (splitPoint_mono n _), splitPoint_zero, splitPoint_size n _ hm]
      simp [← hxs]
    have ht : Tiles (fun p : Var α => p.dim.boundsLocal.1.toNat) (fun p => p.dim.boundsLocal.2.toNat)
        (fun p => p.values.map some) 0 parts := by
      have := tiles_pieces (fun p : Var α => p.dim.boundsLocal.1.toNat) (fun p => p.dim.boundsLocal.2.toNat)
        (fun p => p.values.map some) (fun r => (⟨f r, (xs.drop (splitPoint n (m' + 2) r)).take
          (splitPoint n (m' + 2) (r + 1) - splitPoint n (m' + 2) r)⟩ : Var α))
        (splitPoint n (m' + 2)) (splitPoint_mono n _) (m' + 2) 0 (by
          intro r _ hr
          have hr' : r < m' + 2 := by omega
          obtain ⟨_, h2, _⟩ := (hf r hr').live (by rw [hmin]; exact hr')
          simp only
          rw [h2]
          have := splitPoint_le n (m' + 2) r (by omega)
          refine ⟨by simp, by simp, ?_⟩
          simp only [List.length_map, List.length_take, List.length_drop]
          omega)
      rw [splitPoint_zero] at this
      rw [← hparts, List.range_eq_range']
      exact this
    have hfold := foldlM_assign (fun p : Var α => p.dim.boundsLocal.1.toNat) (fun p => p.dim.boundsLocal.2.toNat)
      (fun p => p.values.map some) parts [] (List.replicate ((n : Int)).toNat none) ht
      (by rw [hvals]; simp [hxs])
    simp only [List.nil_append] at hfold
    have hp2 : ∃ v w rest, parts = v :: w :: rest ∧ v.dim = f 0 := by
      rw [hrange] at hparts
      simp only [List.map_cons] at hparts
      exact ⟨_, _, _, hparts.symm, rfl⟩
    obtain ⟨v, w, rest, hvw, hv0⟩ := hp2
    have hal2 : Aligned ((f 0).resized n src) := by
      unfold Aligned
      rw [Dim.len_resized]
      match src, s3 with
      | none, _ => trivial
      | some (.bounds a b), h => exact h
      | some (.fancy ys), h => exact h
    rw [hvw] at hsum' hfold hdims ⊢
    simp only
    rw [hsum', hdims, s1]
    simp only [bind, Except.bind]
    rw [hv0, Dim.setSize_ok _ _ _ hal2]
    simp only
    rw [hfold]
    refine ⟨_, rfl, ?_, ?_, ?_, rfl, (hf 0 (by omega)).name⟩
    · rw [← hvw]; exact hvals
    · show sources ((f 0).resized n src) = _
      rw [← s2]
      unfold sources
      rfl
    · exact Dim.len_resized (f 0) n src

end Mpi
end Ocgis
