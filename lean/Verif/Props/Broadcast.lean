import Verif.Proofs.Broadcast
/-!
# C16, C17: reordering, broadcasting, trimming
-/
namespace Ocgis.Props
open Ocgis.Array

/-- C16: for every permutation of any number of distinct names, the swap sequence is computed, and carrying the swaps
out one after the other turns the actual order into the desired one. -/
theorem C16_swap_chain (actual desired : List String) (ha : actual.Nodup) (hp : actual.Perm desired) :
    ∃ ops, swapChain actual desired = .ok ops ∧
      ops.foldl (fun l s => swapAt l s.1 s.2) actual = desired ∧ ∀ s ∈ ops, s.1 < s.2 ∧ s.2 < actual.length :=
  swapChain_ok actual desired ha hp

/-- Swapping two positions does what it says. -/
theorem C16_swap_means {α : Type _} (l : List α) (i j : Nat) (hi : i < l.length) (hj : j < l.length) (k : Nat) :
    (swapAt l i j)[k]? = if k = i then l[j]? else if k = j then l[i]? else l[k]? := swapAt_get l i j hi hj k

example : swapChain ["t", "y", "x"] ["x", "t", "y"] = .ok [(0, 2), (1, 2)] := by decide

/-- C16: different sets of names are refused. -/
theorem C16_swap_chain_mismatch (actual desired : List String) (n : String) (h : ¬ (n ∈ actual ↔ n ∈ desired)) :
    swapChain actual desired = .error .assertionError := by
  unfold swapChain
  rw [if_pos]
  simp only [Bool.not_eq_true', Bool.and_eq_false_iff, List.all_eq_false, List.contains_iff_mem]
  by_cases h1 : n ∈ actual
  · left; exact ⟨n, h1, fun h2 => h ⟨fun _ => h2, fun _ => h1⟩⟩
  · by_cases h2 : n ∈ desired
    · right; exact ⟨n, h2, h1⟩
    · exact absurd ⟨fun x => absurd x h1, fun x => absurd x h2⟩ h

/-- C16: broadcasting an array with distinct dimension names `src` (of sizes `size`) to distinct names `dst`, where every
dropped dimension has length one: the result has the destination's shape, with length one for dimensions the
source lacks, and the element at any position - given by name - is the source's element at that position. -/
theorem C16_broadcast_by_names {α : Type _} (arr : Arr α) (src dst : List String) (hs : src.Nodup) (hd : dst.Nodup)
    (size : String → Nat) (hshape : arr.shape = src.map size) (hone : ∀ n ∈ src, n ∉ dst → size n = 1) :
    ∃ out, broadcast arr src dst = .ok out ∧ out.shape = dst.map (fun n => if n ∈ src then size n else 1) ∧
      ∀ pos : String → Nat, (∀ n ∈ src, n ∉ dst → pos n = 0) → out.elem (dst.map pos) = arr.elem (src.map pos) := by
  -- the squeezed array
  have hm : ∀ n ∈ src, ((dst.filter src.contains).contains n) = dst.contains n := by
    intro n hn
    rw [Bool.eq_iff_iff]
    simp [List.mem_filter, hn]
  have hfil : (src.filter fun dn => !(dst.filter src.contains).contains dn) = src.filter fun dn => !dst.contains dn := by
    apply List.filter_congr
    intro n hn; rw [hm n hn]
  obtain ⟨a', hstep, ha1, ha2⟩ : ∃ a' : Arr α,
      squeezeNames arr src dst = .ok (src.filter dst.contains, a') ∧ a'.shape = (src.filter dst.contains).map size ∧
      ∀ pos : String → Nat, (∀ n ∈ src, n ∉ dst → pos n = 0) →
        a'.elem ((src.filter dst.contains).map pos) = arr.elem (src.map pos) := by
    unfold squeezeNames
    simp only [hfil]
    by_cases hz : (src.filter fun dn => !dst.contains dn).length > 0
    · rw [if_pos hz]
      have hlen : arr.shape.length = src.length := by rw [hshape]; simp
      have hax : (((src.filter fun dn => !dst.contains dn).map fun t => src.idxOf t).all
          fun k => decide (arr.shape[k]? = some 1)) = true := by
        simp only [List.all_eq_true, List.mem_map, List.mem_filter, decide_eq_true_eq]
        rintro k ⟨t, ⟨ht, htd⟩, rfl⟩
        have hl := List.idxOf_lt_length_of_mem ht
        rw [hshape, List.getElem?_map, List.getElem?_eq_getElem hl, List.getElem_idxOf hl]
        simp only [Option.map_some, Option.some.injEq]
        exact hone t ht (by simpa using htd)
      refine ⟨_, by simp only [Arr.squeeze, hax, if_true]; rfl, ?_, ?_⟩
      · simp only [hlen]
        rw [keepMask_squeeze src hs dst.contains, hshape, keepIdx_map_filter]
      · intro pos hpos
        simp only [hlen]
        rw [keepMask_squeeze src hs dst.contains, expandIdx_map]
        intro n hn hq
        exact hpos n hn (by simpa using hq)
    · rw [if_neg hz]
      have hall : src.filter dst.contains = src := by
        rw [List.filter_eq_self]
        intro n hn
        have h0 : (src.filter fun dn => !dst.contains dn) = [] := List.eq_nil_of_length_eq_zero (by omega)
        rw [List.filter_eq_nil_iff] at h0
        have := h0 n hn
        simpa using this
      exact ⟨arr, by rw [hall], by rw [hall, hshape], fun pos _ => by rw [hall]⟩
  -- the reordered array
  have hperm : (src.filter dst.contains).Perm (dst.filter src.contains) := by
    apply perm_of_same_members (List.Pairwise.filter _ hs) (List.Pairwise.filter _ hd)
    intro n
    simp only [List.mem_filter, List.contains_iff_mem]
    exact ⟨fun h => ⟨h.2, h.1⟩, fun h => ⟨h.2, h.1⟩⟩
  obtain ⟨ops, hc, happ, _⟩ := swapChain_ok _ _ (List.Pairwise.filter _ hs) hperm
  obtain ⟨hs1, hs2⟩ := foldl_swapaxes ops a'
  generalize hb : ops.foldl Arr.swapaxes a' = b at hs1 hs2
  have hbshape : b.shape = (dst.filter src.contains).map size := by rw [hs1, ha1, applySwaps_map, happ]
  have hbelem : ∀ pos : String → Nat, b.elem ((dst.filter src.contains).map pos) = a'.elem ((src.filter dst.contains).map pos) := by
    intro pos
    have := hs2 ((src.filter dst.contains).map pos)
    rw [applySwaps_map, happ] at this
    exact this
  have hins : (List.foldl (fun s p => s.insertIdx p 1) b.shape
      ((List.range dst.length).filter fun k => !src.contains (dst.getD k "")))
        = dst.map (fun n => if n ∈ src then size n else 1) := by
    have := insert_shape src.contains size dst [] 0 rfl
    simp only [List.nil_append, Nat.sub_zero, ← List.range_eq_range'] at this
    rw [hbshape, this]
    apply List.map_congr_left
    intro n _
    simp
  refine ⟨b.insertSingletons ((List.range dst.length).filter fun k => !src.contains (dst.getD k "")), ?_, hins, ?_⟩
  · unfold broadcast
    simp only [hstep, bind, Except.bind, hc, hb]
  · intro pos hpos
    simp only [Arr.insertSingletons, hins, List.length_map]
    rw [keepMask_insert dst src.contains, keepIdx_map_filter, hbelem, ha2 pos hpos]

example : ∃ out, broadcast (⟨[2, 1, 3], fun idx => idx⟩ : Arr (List Nat)) ["t", "level", "x"] ["x", "realization", "t"] = .ok out ∧
    out.shape = [3, 1, 2] ∧ out.elem [2, 0, 1] = [1, 0, 2] := by
  refine ⟨_, rfl, ?_, ?_⟩ <;> decide

/-- C16: a dimension that is longer than one cannot be dropped. -/
theorem C16_broadcast_rejects {α : Type _} (arr : Arr α) (src dst : List String)
    (size : String → Nat) (hshape : arr.shape = src.map size) (n : String) (hn : n ∈ src) (hnd : n ∉ dst) (h1 : size n ≠ 1) :
    broadcast arr src dst = .error .valueError := by
  have hmem : n ∈ src.filter fun dn => !(dst.filter src.contains).contains dn := by
    simp [List.mem_filter, hn, hnd]
  unfold broadcast squeezeNames
  simp only
  rw [if_pos (List.length_pos_iff.2 (List.ne_nil_of_mem hmem))]
  have hax : (((src.filter fun dn => !(dst.filter src.contains).contains dn).map fun t => src.idxOf t).all
      fun k => decide (arr.shape[k]? = some 1)) = false := by
    rw [List.all_eq_false]
    refine ⟨src.idxOf n, List.mem_map.2 ⟨n, hmem, rfl⟩, ?_⟩
    have hl := List.idxOf_lt_length_of_mem hn
    rw [hshape, List.getElem?_map, List.getElem?_eq_getElem hl, List.getElem_idxOf hl]
    simpa using h1
  simp only [Arr.squeeze, hax]
  rfl

/-- C16, variables: a variable with distinct dimension names, and its mask, broadcast to a permutation of its names. -/
theorem C16_broadcast_variable {α : Type _} (v : Var α) (dst : List String) (hs : v.names.Nodup) (hp : v.names.Perm dst)
    (size : String → Nat) (hshape : v.value.shape = v.names.map size)
    (hmask : ∀ m, v.mask = some m → m.shape = v.names.map size) :
    ∃ v', broadcastVariable v dst = .ok v' ∧ v'.names = dst ∧ v'.value.shape = dst.map size ∧
      (∀ pos : String → Nat, v'.value.elem (dst.map pos) = v.value.elem (v.names.map pos)) ∧
      (v'.mask.isSome = v.mask.isSome) ∧
      ∀ m m', v.mask = some m → v'.mask = some m' → m'.shape = dst.map size ∧
        ∀ pos : String → Nat, m'.elem (dst.map pos) = m.elem (v.names.map pos) := by
  have hd : dst.Nodup := hp.nodup_iff.1 hs
  have hsame : ∀ n, n ∈ v.names ↔ n ∈ dst := fun n => hp.mem_iff
  have hone : ∀ n ∈ v.names, n ∉ dst → size n = 1 := fun n h1 h2 => absurd ((hsame n).1 h1) h2
  have hpos : ∀ pos : String → Nat, ∀ n ∈ v.names, n ∉ dst → pos n = 0 := fun pos n h1 h2 => absurd ((hsame n).1 h1) h2
  have hmap : (dst.map fun n => if n ∈ v.names then size n else 1) = dst.map size := by
    apply List.map_congr_left
    intro n hn; rw [if_pos ((hsame n).2 hn)]
  have hall : dst.all v.names.contains = true := by
    simp only [List.all_eq_true, List.contains_iff_mem]
    exact fun n hn => (hsame n).2 hn
  obtain ⟨out, h1, h2, h3⟩ := C16_broadcast_by_names v.value v.names dst hs hd size hshape hone
  rw [hmap] at h2
  cases hm : v.mask with
  | none =>
    refine ⟨⟨dst, out, none⟩, ?_, rfl, h2, fun pos => h3 pos (hpos pos), rfl, ?_⟩
    · unfold broadcastVariable
      simp only [h1, hm, hall, bind, Except.bind, if_true]
    · intro m m' h; cases h
  | some m =>
    obtain ⟨mo, g1, g2, g3⟩ := C16_broadcast_by_names m v.names dst hs hd size (hmask m hm) hone
    rw [hmap] at g2
    refine ⟨⟨dst, out, some mo⟩, ?_, rfl, h2, fun pos => h3 pos (hpos pos), rfl, ?_⟩
    · unfold broadcastVariable
      simp only [h1, hm, g1, hall, bind, Except.bind, if_true, Except.map]
    · intro m1 m2 e1 e2
      cases e1; cases e2
      exact ⟨g2, fun pos => g3 pos (hpos pos)⟩

/-- C16: at the end of a broadcast scope for a permutation of the dimensions, whether the body returned or raised, the
dimensions are in their original order and every element that the body left is at its named position; in particular
a body that leaves the variable alone leaves the original values and mask.  Scopes that drop a length-one dimension are
missing (`C16_scope_dropping_counterexample`). -/
theorem C16_scope_restores_partial {α : Type _} (v : Var α) (dst : List String) (hs : v.names.Nodup) (hp : v.names.Perm dst)
    (size : String → Nat) (hshape : v.value.shape = v.names.map size)
    (hmask : ∀ m, v.mask = some m → m.shape = v.names.map size)
    (body : Var α → Option PyErr × Var α)
    (hbody : ∀ w : Var α, w.names = dst → w.value.shape = dst.map size →
      (body w).2.names = dst ∧ (body w).2.value.shape = dst.map size ∧
      ∀ m, (body w).2.mask = some m → m.shape = dst.map size) :
    ∃ w, broadcastVariable v dst = .ok w ∧ (broadcastScope v dst body).1 = (body w).1 ∧
      (broadcastScope v dst body).2.names = v.names ∧
      (∀ pos : String → Nat, (broadcastScope v dst body).2.value.elem (v.names.map pos) = (body w).2.value.elem (dst.map pos)) ∧
      ((body w).2 = w → (∀ pos : String → Nat,
          (broadcastScope v dst body).2.value.elem (v.names.map pos) = v.value.elem (v.names.map pos)) ∧
        ∀ m m', v.mask = some m → (broadcastScope v dst body).2.mask = some m' →
          ∀ pos : String → Nat, m'.elem (v.names.map pos) = m.elem (v.names.map pos)) := by
  obtain ⟨w, h1, h2, h3, h4, h5, h6⟩ := C16_broadcast_variable v dst hs hp size hshape hmask
  obtain ⟨b1, b2, b3⟩ := hbody w h2 h3
  have hd : dst.Nodup := hp.nodup_iff.1 hs
  obtain ⟨x, x1, x2, x3, x4, x5, x6⟩ := C16_broadcast_variable (body w).2 v.names (by rw [b1]; exact hd)
    (by rw [b1]; exact hp.symm) size (by rw [b1]; exact b2) (by rw [b1]; exact b3)
  have hrun : broadcastScope v dst body = ((body w).1, x) := by
    unfold broadcastScope
    simp only [h1, x1]
  refine ⟨w, h1, by rw [hrun], by rw [hrun]; exact x2, ?_, ?_⟩
  · intro pos
    rw [hrun]
    simp only
    rw [x4 pos, b1]
  · intro hw
    rw [hrun]
    refine ⟨fun pos => ?_, ?_⟩
    · simp only
      rw [x4 pos, b1, hw, h4]
    · intro m m' e1 e2 pos
      cases hwm : w.mask with
      | none => rw [e1, hwm] at h5; cases h5
      | some wm =>
        obtain ⟨_, y2⟩ := x6 wm m' (by rw [hw]; exact hwm) e2
        obtain ⟨_, z2⟩ := h6 m wm e1 hwm
        have := y2 pos
        rw [b1] at this
        rw [this, z2]

/-- C16: a scope that drops a dimension of length one cannot put it back: it ends with an error and the variable has lost
the dimension. -/
theorem C16_scope_dropping_counterexample :
    let r := broadcastScope (⟨["t", "level"], ⟨[2, 1], fun i => i.headD 0⟩, none⟩ : Var Nat) ["t"] (fun w => (none, w))
    r.1 = some .keyError ∧ r.2.names = ["t"] := by
  refine ⟨?_, ?_⟩ <;> decide

/-! ### C17 -/

theorem firstTrue_spec (n : Nat) (p : Nat → Bool) (h : ∃ k, k < n ∧ p k = true) :
    firstTrue n 0 p < n ∧ p (firstTrue n 0 p) = true ∧ ∀ k, k < n → p k = true → firstTrue n 0 p ≤ k := by
  unfold firstTrue
  cases e : (List.range n).find? p with
  | none =>
    obtain ⟨k, h1, h2⟩ := h
    rw [List.find?_eq_none] at e
    exact absurd h2 (e k (List.mem_range.2 h1))
  | some k =>
    have hp := List.find?_some e
    have hk := List.mem_range.1 (List.mem_of_find?_eq_some e)
    refine ⟨hk, hp, ?_⟩
    intro j hj hpj
    simp only [Option.getD_some]
    rw [List.find?_range_eq_some] at e
    rcases Nat.lt_or_ge j k with h | h
    · have := e.2.2 j h
      rw [hpj] at this; cases this
    · exact h

theorem lastTrue_spec (n : Nat) (p : Nat → Bool) (h : ∃ k, k < n ∧ p k = true) :
    ∃ m, lastTrue n p = m + 1 ∧ m < n ∧ p m = true ∧ ∀ k, k < n → p k = true → k ≤ m := by
  unfold lastTrue
  rw [List.find?_map]
  cases e : (List.range n).find? (p ∘ fun k => n - (k + 1)) with
  | none =>
    obtain ⟨k, h1, h2⟩ := h
    rw [List.find?_eq_none] at e
    have := e (n - (k + 1)) (List.mem_range.2 (by omega))
    simp only [Function.comp_apply] at this
    rw [show n - (n - (k + 1) + 1) = k by omega] at this
    exact absurd h2 this
  | some k =>
    have hp := List.find?_some e
    have hk := List.mem_range.1 (List.mem_of_find?_eq_some e)
    refine ⟨n - (k + 1), rfl, by omega, hp, ?_⟩
    intro j hj hpj
    rw [List.find?_range_eq_some] at e
    rcases Nat.lt_or_ge (n - (k + 1)) j with h | h
    · have := e.2.2 (n - (j + 1)) (by omega)
      simp only [Function.comp_apply] at this
      rw [show n - (n - (j + 1) + 1) = j by omega, hpj] at this
      simp at this
    · exact h

/-- The element of a two-dimensional array. -/
def at2 {α : Type _} (arr : List (List α)) (i j : Nat) : Option α := (arr[i]?).bind (·[j]?)

/-- C17: for every two-dimensional array with an unmasked element, trimming succeeds; the result is the block of rows
`r0..r1-1` and columns `c0..c1-1`, every unmasked element is in it, and each of its four borders
has an unmasked element. -/
theorem C17_trim {α : Type _} (masked : α → Bool) (ncol : Nat) (arr : List (List α))
    (hrect : ∀ row ∈ arr, row.length = ncol) (hsome : ∃ i j x, at2 arr i j = some x ∧ masked x = false) :
    ∃ out r0 r1 c0 c1, trim masked ncol arr = .ok (out, (r0, r1), (c0, c1)) ∧
      r0 < r1 ∧ r1 ≤ arr.length ∧ c0 < c1 ∧ c1 ≤ ncol ∧ out.length = r1 - r0 ∧ (∀ row ∈ out, row.length = c1 - c0) ∧
      (∀ i j, i < r1 - r0 → j < c1 - c0 → at2 out i j = at2 arr (r0 + i) (c0 + j)) ∧
      (∀ i j x, at2 arr i j = some x → masked x = false → r0 ≤ i ∧ i < r1 ∧ c0 ≤ j ∧ j < c1) ∧
      (∃ j x, at2 out 0 j = some x ∧ masked x = false) ∧ (∃ j x, at2 out (r1 - r0 - 1) j = some x ∧ masked x = false) ∧
      (∃ i x, at2 out i 0 = some x ∧ masked x = false) ∧ (∃ i x, at2 out i (c1 - c0 - 1) = some x ∧ masked x = false) := by
  -- what the row and column tests mean
  have hrow : ∀ r, (!(((arr[r]?).getD []).all masked)) = true ↔ ∃ j x, at2 arr r j = some x ∧ masked x = false := by
    intro r
    rw [Bool.not_eq_true', List.all_eq_false]
    unfold at2
    cases hr : arr[r]? with
    | none => simp
    | some row =>
      simp only [Option.getD_some, Option.bind_some]
      constructor
      · rintro ⟨x, hx, hm⟩
        obtain ⟨j, hj⟩ := List.getElem?_of_mem hx
        exact ⟨j, x, hj, by simpa using hm⟩
      · rintro ⟨j, x, hx, hm⟩
        exact ⟨x, List.mem_of_getElem? hx, by simp [hm]⟩
  have hcol : ∀ c, (!(arr.all fun row => (row[c]?).elim true masked)) = true ↔ ∃ i x, at2 arr i c = some x ∧ masked x = false := by
    intro c
    rw [Bool.not_eq_true', List.all_eq_false]
    unfold at2
    constructor
    · rintro ⟨row, hrow, hm⟩
      obtain ⟨i, hi⟩ := List.getElem?_of_mem hrow
      cases hc : row[c]? with
      | none => rw [hc] at hm; exact absurd rfl hm
      | some x => rw [hc] at hm; exact ⟨i, x, by rw [hi]; exact hc, by simpa using hm⟩
    · rintro ⟨i, x, hx, hm⟩
      cases hi : arr[i]? with
      | none => rw [hi] at hx; cases hx
      | some row =>
        rw [hi] at hx
        simp only [Option.bind_some] at hx
        exact ⟨row, List.mem_of_getElem? hi, by rw [hx]; simp [hm]⟩
  have hin : ∀ i j x, at2 arr i j = some x → i < arr.length ∧ j < ncol := by
    intro i j x h
    unfold at2 at h
    cases hi : arr[i]? with
    | none => rw [hi] at h; cases h
    | some row =>
      rw [hi] at h
      have h1 := (List.getElem?_eq_some_iff.1 hi).1
      have h2 := (List.getElem?_eq_some_iff.1 h).1
      rw [hrect row (List.mem_of_getElem? hi)] at h2
      exact ⟨h1, h2⟩
  obtain ⟨i0, j0, x0, hx0, hm0⟩ := hsome
  obtain ⟨hi0, hj0⟩ := hin _ _ _ hx0
  have hr := firstTrue_spec arr.length (fun r : Nat => !(((arr[r]?).getD []).all masked)) ⟨i0, hi0, (hrow i0).2 ⟨j0, x0, hx0, hm0⟩⟩
  have hr' := lastTrue_spec arr.length (fun r : Nat => !(((arr[r]?).getD []).all masked)) ⟨i0, hi0, (hrow i0).2 ⟨j0, x0, hx0, hm0⟩⟩
  have hc := firstTrue_spec ncol (fun c : Nat => !(arr.all fun row => (row[c]?).elim true masked)) ⟨j0, hj0, (hcol j0).2 ⟨i0, x0, hx0, hm0⟩⟩
  have hc' := lastTrue_spec ncol (fun c : Nat => !(arr.all fun row => (row[c]?).elim true masked)) ⟨j0, hj0, (hcol j0).2 ⟨i0, x0, hx0, hm0⟩⟩
  have hnot : ¬ (arr.all (fun row => row.all masked)) = true := by
    intro h
    rw [List.all_eq_true] at h
    unfold at2 at hx0
    cases hi : arr[i0]? with
    | none => rw [hi] at hx0; cases hx0
    | some row =>
      rw [hi] at hx0
      have := List.all_eq_true.1 (h row (List.mem_of_getElem? hi)) x0 (List.mem_of_getElem? hx0)
      rw [hm0] at this; cases this
  generalize hr0 : firstTrue arr.length 0 (fun r : Nat => !(((arr[r]?).getD []).all masked)) = r0 at hr
  generalize hr1 : lastTrue arr.length (fun r : Nat => !(((arr[r]?).getD []).all masked)) = r1 at hr'
  generalize hc0 : firstTrue ncol 0 (fun c : Nat => !(arr.all fun row => (row[c]?).elim true masked)) = c0 at hc
  generalize hc1 : lastTrue ncol (fun c : Nat => !(arr.all fun row => (row[c]?).elim true masked)) = c1 at hc'
  obtain ⟨ra, rb, rc⟩ := hr
  obtain ⟨rm, rd, re, rf, rg⟩ := hr'
  obtain ⟨ca, cb, cc⟩ := hc
  obtain ⟨cm, cd, ce, cf, cg⟩ := hc'
  have hle : r0 ≤ rm := rc rm re rf
  have hcle : c0 ≤ cm := cc cm ce cf
  have hat : ∀ i j, i < r1 - r0 → j < c1 - c0 →
      at2 (((arr.drop r0).take (r1 - r0)).map fun row => (row.drop c0).take (c1 - c0)) i j = at2 arr (r0 + i) (c0 + j) := by
    intro i j hi hj
    unfold at2
    rw [List.getElem?_map, List.getElem?_take, if_pos hi, List.getElem?_drop]
    cases arr[r0 + i]? with
    | none => rfl
    | some row => simp [hj]
  have hall : ∀ i j x, at2 arr i j = some x → masked x = false → r0 ≤ i ∧ i < r1 ∧ c0 ≤ j ∧ j < c1 := by
    intro i j x hx hm
    obtain ⟨h1, h2⟩ := hin _ _ _ hx
    have a := rc i h1 ((hrow i).2 ⟨j, x, hx, hm⟩)
    have b := rg i h1 ((hrow i).2 ⟨j, x, hx, hm⟩)
    have c := cc j h2 ((hcol j).2 ⟨i, x, hx, hm⟩)
    have d := cg j h2 ((hcol j).2 ⟨i, x, hx, hm⟩)
    omega
  refine ⟨_, r0, r1, c0, c1, ?_, by omega, by omega, by omega, by omega, ?_, ?_, hat, hall, ?_, ?_, ?_, ?_⟩
  · unfold trim
    rw [if_neg hnot]
    simp only [hr0, hr1, hc0, hc1]
  · simp; omega
  · intro row hrow'
    obtain ⟨row0, h1, rfl⟩ := List.mem_map.1 hrow'
    have := hrect row0 (List.mem_of_mem_drop (List.mem_of_mem_take h1))
    simp; omega
  · obtain ⟨j, x, hx, hm⟩ := (hrow r0).1 rb
    obtain ⟨_, _, h3, h4⟩ := hall _ _ _ hx hm
    refine ⟨j - c0, x, ?_, hm⟩
    rw [hat 0 (j - c0) (by omega) (by omega), show c0 + (j - c0) = j by omega]
    exact hx
  · obtain ⟨j, x, hx, hm⟩ := (hrow rm).1 rf
    obtain ⟨_, _, h3, h4⟩ := hall _ _ _ hx hm
    refine ⟨j - c0, x, ?_, hm⟩
    rw [hat (r1 - r0 - 1) (j - c0) (by omega) (by omega), show c0 + (j - c0) = j by omega,
      show r0 + (r1 - r0 - 1) = rm by omega]
    exact hx
  · obtain ⟨i, x, hx, hm⟩ := (hcol c0).1 cb
    obtain ⟨h1, h2, _, _⟩ := hall _ _ _ hx hm
    refine ⟨i - r0, x, ?_, hm⟩
    rw [hat (i - r0) 0 (by omega) (by omega), show r0 + (i - r0) = i by omega]
    exact hx
  · obtain ⟨i, x, hx, hm⟩ := (hcol cm).1 cf
    obtain ⟨h1, h2, _, _⟩ := hall _ _ _ hx hm
    refine ⟨i - r0, x, ?_, hm⟩
    rw [hat (i - r0) (c1 - c0 - 1) (by omega) (by omega), show r0 + (i - r0) = i by omega,
      show c0 + (c1 - c0 - 1) = cm by omega]
    exact hx

/-- C17: a fully masked array (an empty one included) is refused. -/
theorem C17_all_masked {α : Type _} (masked : α → Bool) (ncol : Nat) (arr : List (List α))
    (h : ∀ row ∈ arr, ∀ x ∈ row, masked x = true) : trim masked ncol arr = .error .allElementsMasked := by
  unfold trim
  rw [if_pos]
  simp only [List.all_eq_true]
  exact h

example : trim id 3 [[true, true, true], [true, false, true], [true, true, false]]
    = .ok ([[false, true], [true, false]], (1, 3), (1, 3)) := by decide

end Ocgis.Props
