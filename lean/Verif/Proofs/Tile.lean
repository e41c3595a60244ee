import Verif.Spec.Tile
import Verif.Proofs.Product
/-!
# Lemmas
-/
namespace Ocgis.Props
open Ocgis.Tile Ocgis.Spec

theorem tile_count (m t k : Nat) (ht : 0 < t) : k < (m + t - 1) / t ↔ k * t < m := by
  rw [← Nat.succ_le_iff, Nat.le_div_iff_mul_le ht, Nat.succ_mul]
  omega

/-- The slices along a dimension. -/
theorem dimSlices_eq (n t o : Nat) (ht : 0 < t) (ho : o ≤ n) :
    dimSlices n t o = .ok ((List.range ((n - o + t - 1) / t)).map fun k => (o + k * t, min (o + (k + 1) * t) n)) := by
  have hcount : (n + t - o + t - 1) / t = (n - o + t - 1) / t + 1 := by
    rw [show n + t - o + t - 1 = (n - o + t - 1) + t by omega, Nat.add_div_right _ ht]
  have hK := tile_count (n - o) t
  generalize hKd : (n - o + t - 1) / t = K at *
  have hlast : K * t ≥ n - o := by
    have := hK K ht
    omega
  have hidx : arange o (n + t) t = ((List.range K).map fun k => o + k * t) ++ [o + K * t] := by
    rw [arange, hcount, List.range_succ, List.map_append]
    rfl
  have hclip : clipLast n (arange o (n + t) t) = .ok (((List.range K).map fun k => o + k * t) ++ [n]) := by
    rw [hidx, clipLast]
    simp only [List.getLast?_concat]
    by_cases h : o + K * t > n
    · rw [if_pos h, List.dropLast_concat]
    · rw [if_neg h]
      have : o + K * t = n := by omega
      rw [this]
  unfold dimSlices
  rw [hclip]
  have ht' : ¬ t = 0 := by omega
  simp only [ht', if_false]
  show Except.ok _ = _
  congr 1
  apply List.ext_getElem
  · simp [slices]
  · intro i h1 h2
    have hi : i < K := by simpa using h2
    have hlt := (hK i ht).1 hi
    simp only [slices, List.getElem_zip, List.getElem_map, List.getElem_range, List.getElem_drop]
    rw [List.getElem_append_left (by simpa using hi)]
    simp only [List.getElem_map, List.getElem_range]
    congr 1
    by_cases hi1 : i + 1 < K
    · have hlt1 := (hK (i + 1) ht).1 hi1
      rw [List.getElem_append_left (by simp; omega)]
      simp only [List.getElem_map, List.getElem_range]
      rw [show 1 + i = i + 1 by omega]
      omega
    · have : i + 1 = K := by omega
      rw [List.getElem_append_right (by simp; omega)]
      simp only [List.getElem_singleton]
      rw [this]; omega

/-- The tiles along a dimension: each index is in exactly one. -/
theorem dim_cover (n t o i : Nat) (ht : 0 < t) (hi : o ≤ i) (hin : i < n) (k : Nat) :
    (k < (n - o + t - 1) / t ∧ o + k * t ≤ i ∧ i < min (o + (k + 1) * t) n) ↔ k = (i - o) / t := by
  have hd := Nat.div_add_mod (i - o) t
  have hm := Nat.mod_lt (i - o) ht
  rw [Nat.mul_comm] at hd
  constructor
  · rintro ⟨_, h2, h3⟩
    rw [Nat.succ_mul] at h3
    symm
    rw [Nat.div_eq_iff ht]
    omega
  · rintro rfl
    rw [tile_count _ _ _ ht, Nat.succ_mul]
    omega

/-- The tile schema, tile by tile. -/
theorem tileSchema_eq (nrow ncol t o : Nat) (ht : 0 < t) (hr : o ≤ nrow) (hc : o ≤ ncol) :
    ∃ schema, tileSchema nrow ncol t o = .ok schema ∧
    schema.length = ((nrow - o + t - 1) / t) * ((ncol - o + t - 1) / t) ∧
    ∀ (k : Nat) (tile : Tile), schema[k]? = some tile → tile.id = k ∧
      ∃ a b, k = a * ((ncol - o + t - 1) / t) + b ∧ a < (nrow - o + t - 1) / t ∧ b < (ncol - o + t - 1) / t ∧
        tile.row = (o + a * t, min (o + (a + 1) * t) nrow) ∧ tile.col = (o + b * t, min (o + (b + 1) * t) ncol) := by
  generalize hR : (nrow - o + t - 1) / t = R
  generalize hC : (ncol - o + t - 1) / t = C
  refine ⟨_, by rw [tileSchema, dimSlices_eq nrow t o ht hr, dimSlices_eq ncol t o ht hc]; rfl, ?_, ?_⟩
  · simp only [List.flatMap_map, List.map_map, hR, hC]
    rw [List.length_map, List.length_zipIdx]
    exact rowMajor_length R C _
  · intro k tile hk
    simp only [List.flatMap_map, List.map_map, hR, hC] at hk
    rw [List.getElem?_map, List.getElem?_zipIdx, Option.map_map] at hk
    have hlt : k < R * C := by
      by_cases h : k < R * C
      · exact h
      · rw [List.getElem?_eq_none (by
          have := rowMajor_length R C (fun r c => ((o + r * t, min (o + (r + 1) * t) nrow), (o + c * t, min (o + (c + 1) * t) ncol)))
          simp only [Function.comp_def]
          omega)] at hk
        cases hk
    have hC0 : 0 < C := by
      rcases Nat.eq_zero_or_pos C with h | h
      · subst h; simp at hlt
      · exact h
    have hdm := Nat.div_add_mod k C
    have ha : k / C < R := (Nat.div_lt_iff_lt_mul hC0).2 hlt
    have hb : k % C < C := Nat.mod_lt _ hC0
    have hget := rowMajor_get R C (fun r c => ((o + r * t, min (o + (r + 1) * t) nrow), (o + c * t, min (o + (c + 1) * t) ncol)))
      (k / C) (k % C) ha hb
    rw [show k / C * C + k % C = k by rw [Nat.mul_comm]; exact hdm] at hget
    simp only [Function.comp_def] at hk
    rw [hget] at hk
    simp only [Option.map_some, Option.some.injEq] at hk
    subst hk
    refine ⟨by simp, k / C, k % C, ?_, ha, hb, rfl, rfl⟩
    rw [Nat.mul_comm]; exact hdm.symm

theorem cellAt_cut {α : Type _} (g : List (List α)) (r c : Nat × Nat) (i j : Nat) (hi : i < r.2 - r.1) (hj : j < c.2 - c.1) :
    cellAt (cut g r c) i j = cellAt g (r.1 + i) (c.1 + j) := by
  simp only [cellAt, cut, List.getElem?_map]
  rw [List.getElem?_take_of_lt hi, List.getElem?_drop]
  cases g[r.1 + i]? with
  | none => rfl
  | some row =>
    simp only [Option.map_some, Option.bind_some]
    rw [List.getElem?_take_of_lt hj, List.getElem?_drop]

theorem shape_cut {α : Type _} (g : List (List α)) (n m : Nat) (r c : Nat × Nat) (hs : HasShape g n m) (hr : r.2 ≤ n) (hc : c.2 ≤ m) :
    HasShape (cut g r c) (r.2 - r.1) (c.2 - c.1) := by
  refine ⟨?_, ?_⟩
  · simp only [cut, List.length_map, List.length_take, List.length_drop, hs.1]
    omega
  · intro row hrow
    obtain ⟨row', h1, rfl⟩ := List.mem_map.1 hrow
    have := hs.2 row' (List.mem_of_mem_drop (List.mem_of_mem_take h1))
    simp only [List.length_take, List.length_drop, this]
    omega

theorem shape_lengths {α : Type _} {g : List (List α)} {n m : Nat} (hs : HasShape g n m) : g.map List.length = List.replicate n m := by
  rw [List.eq_replicate_iff]
  refine ⟨by simpa using hs.1, ?_⟩
  intro b hb
  obtain ⟨row, h1, rfl⟩ := List.mem_map.1 hb
  exact hs.2 row h1

theorem overwrite_get {β : Type _} (l : List β) (s : Nat) (part : List β) (h : s + part.length ≤ l.length) (j : Nat) :
    (overwrite l s part)[j]? = if s ≤ j ∧ j < s + part.length then part[j - s]? else l[j]? := by
  unfold overwrite
  by_cases h1 : j < s
  · rw [if_neg (by omega), List.append_assoc, List.getElem?_append_left (by simp; omega), List.getElem?_take_of_lt h1]
  · by_cases h2 : j < s + part.length
    · rw [if_pos ⟨by omega, h2⟩, List.getElem?_append_left (by simp; omega), List.getElem?_append_right (by simp; omega)]
      simp only [List.length_take]
      rw [Nat.min_eq_left (by omega)]
    · rw [if_neg (by omega), List.getElem?_append_right (by simp; omega), List.getElem?_drop]
      simp only [List.length_append, List.length_take]
      rw [Nat.min_eq_left (by omega)]
      congr 1
      omega

theorem overwrite_length {β : Type _} (l : List β) (s : Nat) (part : List β) (h : s + part.length ≤ l.length) :
    (overwrite l s part).length = l.length := by
  simp only [overwrite, List.length_append, List.length_take, List.length_drop]
  omega

theorem overwriteRows_length {β : Type _} (rows : List (List β)) : ∀ (c0 : Nat) (parts : List (List β)),
    (overwriteRows rows c0 parts).length = rows.length := by
  induction rows with
  | nil => intro c0 parts; rfl
  | cons r rs ih =>
    intro c0 parts
    cases parts with
    | nil => rfl
    | cons p ps => simp [overwriteRows, ih]

theorem overwriteRows_get {β : Type _} (rows : List (List β)) : ∀ (c0 : Nat) (parts : List (List β)) (i : Nat),
    (overwriteRows rows c0 parts)[i]? = if i < parts.length then (rows[i]?).map fun row => overwrite row c0 (parts.getD i []) else rows[i]? := by
  induction rows with
  | nil => intro c0 parts i; simp [overwriteRows]
  | cons r rs ih =>
    intro c0 parts i
    cases parts with
    | nil => simp [overwriteRows]
    | cons p ps =>
      cases i with
      | zero => simp [overwriteRows]
      | succ i =>
        simp only [overwriteRows, List.getElem?_cons_succ, List.length_cons, Nat.add_lt_add_iff_right, List.getD_cons_succ]
        exact ih c0 ps i

/-- Writing a slice. -/
theorem paste_spec {β : Type _} (out : List (List β)) (n m : Nat) (r c : Nat × Nat) (value : List (List β)) (ho : HasShape out n m)
    (hv : HasShape value (r.2 - r.1) (c.2 - c.1)) (hr1 : r.1 ≤ r.2) (hr : r.2 ≤ n) (hc1 : c.1 ≤ c.2) (hc : c.2 ≤ m) :
    ∃ out', paste out r c value = .ok out' ∧ HasShape out' n m ∧
    ∀ i j, cellAt out' i j = if r.1 ≤ i ∧ i < r.2 ∧ c.1 ≤ j ∧ j < c.2 then cellAt value (i - r.1) (j - c.1) else cellAt out i j := by
  have hcut := shape_cut out n m r c ho hr hc
  refine ⟨_, by rw [paste, if_pos (by rw [shape_lengths hcut, shape_lengths hv])], ?_, ?_⟩
  · refine ⟨?_, ?_⟩
    · simp only [List.length_append, List.length_take, overwriteRows_length, List.length_drop, ho.1]
      omega
    · intro row hrow
      rcases List.mem_append.1 hrow with h | h
      · exact ho.2 row (List.mem_of_mem_take h)
      · obtain ⟨i, hi⟩ := List.getElem?_of_mem h
        rw [overwriteRows_get] at hi
        by_cases hlt : i < value.length
        · rw [if_pos hlt] at hi
          cases hg : (out.drop r.1)[i]? with
          | none => rw [hg] at hi; cases hi
          | some row0 =>
            rw [hg] at hi
            simp only [Option.map_some, Option.some.injEq] at hi
            subst hi
            have h0 := ho.2 row0 (List.mem_of_mem_drop (List.mem_of_getElem? hg))
            have h1 : (value.getD i []).length = c.2 - c.1 := by
              rw [List.getD_eq_getElem?_getD, List.getElem?_eq_getElem hlt]
              exact hv.2 _ (List.getElem_mem _)
            rw [overwrite_length _ _ _ (by omega)]
            exact h0
        · rw [if_neg hlt] at hi
          exact ho.2 row (List.mem_of_mem_drop (List.mem_of_getElem? hi))
  · intro i j
    unfold cellAt
    by_cases hi1 : i < r.1
    · rw [if_neg (by omega), List.getElem?_append_left (by simp [ho.1]; omega), List.getElem?_take_of_lt hi1]
    · rw [List.getElem?_append_right (by simp; omega), List.length_take, ho.1, Nat.min_eq_left (by omega), overwriteRows_get,
        List.getElem?_drop, hv.1, show r.1 + (i - r.1) = i by omega]
      by_cases hi2 : i < r.2
      · rw [if_pos (by omega)]
        have hlt : i < out.length := by rw [ho.1]; omega
        have hltv : i - r.1 < value.length := by rw [hv.1]; omega
        rw [List.getElem?_eq_getElem hlt, List.getElem?_eq_getElem hltv]
        simp only [Option.map_some, Option.bind_some]
        have h0 := ho.2 out[i] (List.getElem_mem _)
        have h1 : (value.getD (i - r.1) []) = value[i - r.1] := by
          rw [List.getD_eq_getElem?_getD, List.getElem?_eq_getElem hltv]; rfl
        have h2 := hv.2 value[i - r.1] (List.getElem_mem _)
        rw [h1, overwrite_get _ _ _ (by omega), h2]
        by_cases hj : c.1 ≤ j ∧ j < c.2
        · rw [if_pos (by omega), if_pos (by omega)]
        · rw [if_neg (by omega), if_neg (by omega)]
      · rw [if_neg (by omega), if_neg (by omega)]

theorem cellAt_map {α β : Type _} (f : α → β) (g : List (List α)) (i j : Nat) : cellAt (g.map (·.map f)) i j = (cellAt g i j).map f := by
  simp only [cellAt, List.getElem?_map]
  cases g[i]? with
  | none => rfl
  | some row => simp

theorem shape_map {α β : Type _} (f : α → β) (g : List (List α)) (n m : Nat) (h : HasShape g n m) : HasShape (g.map (·.map f)) n m := by
  refine ⟨by simpa using h.1, ?_⟩
  intro row hrow
  obtain ⟨r, h1, rfl⟩ := List.mem_map.1 hrow
  simpa using h.2 r h1

theorem cellAt_some {α : Type _} (g : List (List α)) (n m : Nat) (h : HasShape g n m) (i j : Nat) (hi : i < n) (hj : j < m) :
    ∃ x, cellAt g i j = some x := by
  have hi' : i < g.length := by rw [h.1]; exact hi
  have hj' : j < g[i].length := by rw [h.2 g[i] (List.getElem_mem _)]; exact hj
  exact ⟨g[i][j], by simp [cellAt, List.getElem?_eq_getElem hi', List.getElem?_eq_getElem hj']⟩

theorem shape_zipWith {α β γ : Type _} (f : α → β → γ) (g : List (List α)) (h : List (List β)) (n m : Nat) (hg : HasShape g n m) (hh : HasShape h n m) :
    HasShape (g.zipWith (fun r s => r.zipWith f s) h) n m := by
  refine ⟨by simp [hg.1, hh.1], ?_⟩
  intro row hrow
  obtain ⟨i, hi⟩ := List.getElem?_of_mem hrow
  rw [List.getElem?_zipWith] at hi
  cases h1 : g[i]? with
  | none => rw [h1] at hi; simp at hi
  | some r =>
    cases h2 : h[i]? with
    | none => rw [h1, h2] at hi; simp at hi
    | some s =>
      rw [h1, h2] at hi
      simp only [Option.some.injEq] at hi
      subst hi
      simp [hg.2 r (List.mem_of_getElem? h1), hh.2 s (List.mem_of_getElem? h2)]

theorem cellAt_zipWith {α β γ : Type _} (f : α → β → γ) (g : List (List α)) (h : List (List β)) (i j : Nat) (x : α) (y : β)
    (hx : cellAt g i j = some x) (hy : cellAt h i j = some y) :
    cellAt (g.zipWith (fun r s => r.zipWith f s) h) i j = some (f x y) := by
  unfold cellAt at *
  rw [List.getElem?_zipWith]
  cases h1 : g[i]? with
  | none => rw [h1] at hx; cases hx
  | some r =>
    cases h2 : h[i]? with
    | none => rw [h2] at hy; cases hy
    | some s =>
      rw [h1] at hx; rw [h2] at hy
      simp only [Option.bind_some] at hx hy ⊢
      rw [List.getElem?_zipWith, hx, hy]

/-- One tile. -/
theorem computeTile_spec {α β : Type _} (f : α → Cell β) (execute : List (List α) → Res (List (List (Cell β))))
    (hexec : ∀ g, execute g = .ok (g.map (·.map f))) (field : List (List α)) (N M n m : Nat) (hf : HasShape field N M) (off : Nat × Nat)
    (hN : off.1 + n ≤ N) (hM : off.2 + m ≤ M) (mask : Option (List (List Bool))) (hmask : ∀ mk, mask = some mk → HasShape mk n m)
    (out : List (List (Cell β))) (ho : HasShape out n m) (t : Tile) (hr1 : t.row.1 ≤ t.row.2) (hr : t.row.2 ≤ n) (hc1 : t.col.1 ≤ t.col.2)
    (hc : t.col.2 ≤ m) :
    ∃ out', computeTile execute field off mask out t = .ok out' ∧ HasShape out' n m ∧
    ∀ i j, (TileHas t i j → ∃ x, cellAt field (off.1 + i) (off.2 + j) = some x ∧
        cellAt out' i j = some ((f x).1, maskedAt mask i j || (f x).2)) ∧
      (¬ TileHas t i j → cellAt out' i j = cellAt out i j) := by
  have hcut := shape_cut field N M (t.row.1 + off.1, t.row.2 + off.1) (t.col.1 + off.2, t.col.2 + off.2) hf
    (by simp only; omega) (by simp only; omega)
  simp only [show t.row.2 + off.1 - (t.row.1 + off.1) = t.row.2 - t.row.1 by omega,
    show t.col.2 + off.2 - (t.col.1 + off.2) = t.col.2 - t.col.1 by omega] at hcut
  have hval := shape_map f _ _ _ hcut
  have hor : HasShape (orMask ((cut field (t.row.1 + off.1, t.row.2 + off.1) (t.col.1 + off.2, t.col.2 + off.2)).map (·.map f))
      (mask.map fun m => cut m t.row t.col)) (t.row.2 - t.row.1) (t.col.2 - t.col.1) := by
    cases hm : mask with
    | none => exact hval
    | some mk => exact shape_zipWith _ _ _ _ _ hval (shape_cut mk n m t.row t.col (hmask mk hm) hr hc)
  obtain ⟨out', h1, h2, h3⟩ := paste_spec out n m t.row t.col _ ho hor hr1 hr hc1 hc
  refine ⟨out', ?_, h2, ?_⟩
  · rw [computeTile, hexec]
    exact h1
  · intro i j
    refine ⟨?_, ?_⟩
    · intro hh
      obtain ⟨x1, x2, x3, x4⟩ := hh
      rw [h3, if_pos ⟨x1, x2, x3, x4⟩]
      obtain ⟨x, hx⟩ := cellAt_some field N M hf (off.1 + i) (off.2 + j) (by omega) (by omega)
      refine ⟨x, hx, ?_⟩
      have hvx : cellAt ((cut field (t.row.1 + off.1, t.row.2 + off.1) (t.col.1 + off.2, t.col.2 + off.2)).map (·.map f))
          (i - t.row.1) (j - t.col.1) = some (f x) := by
        rw [cellAt_map, cellAt_cut _ _ _ _ _ (by simp only; omega) (by simp only; omega)]
        simp only
        rw [show t.row.1 + off.1 + (i - t.row.1) = off.1 + i by omega, show t.col.1 + off.2 + (j - t.col.1) = off.2 + j by omega, hx]
        rfl
      cases hm : mask with
      | none => simpa [orMask, maskedAt] using hvx
      | some mk =>
        obtain ⟨b, hb⟩ := cellAt_some mk n m (hmask mk hm) i j (by omega) (by omega)
        have hbc : cellAt (cut mk t.row t.col) (i - t.row.1) (j - t.col.1) = some b := by
          rw [cellAt_cut _ _ _ _ _ (by omega) (by omega), show t.row.1 + (i - t.row.1) = i by omega,
            show t.col.1 + (j - t.col.1) = j by omega, hb]
        have := cellAt_zipWith (fun (x : Cell β) (b : Bool) => (x.1, b || x.2)) _ _ _ _ _ _ hvx hbc
        simp only [Option.map_some, orMask]
        rw [this]
        simp [maskedAt, hb]
    · intro hh
      rw [h3, if_neg (by intro hc; exact hh hc)]

theorem computeTiles_spec {α β : Type _} (f : α → Cell β) (execute : List (List α) → Res (List (List (Cell β))))
    (hexec : ∀ g, execute g = .ok (g.map (·.map f))) (field : List (List α)) (N M n m : Nat) (hf : HasShape field N M) (off : Nat × Nat)
    (hN : off.1 + n ≤ N) (hM : off.2 + m ≤ M) (mask : Option (List (List Bool))) (hmask : ∀ mk, mask = some mk → HasShape mk n m) :
    ∀ (ts : List Tile) (out : List (List (Cell β))), HasShape out n m →
    (∀ t ∈ ts, t.row.1 ≤ t.row.2 ∧ t.row.2 ≤ n ∧ t.col.1 ≤ t.col.2 ∧ t.col.2 ≤ m) →
    (computeTiles execute field off mask out ts).2 = none ∧ HasShape (computeTiles execute field off mask out ts).1 n m ∧
    ∀ i j, ((∃ t ∈ ts, TileHas t i j) → ∃ x, cellAt field (off.1 + i) (off.2 + j) = some x ∧
        cellAt (computeTiles execute field off mask out ts).1 i j = some ((f x).1, maskedAt mask i j || (f x).2)) ∧
      ((¬ ∃ t ∈ ts, TileHas t i j) → cellAt (computeTiles execute field off mask out ts).1 i j = cellAt out i j) := by
  intro ts
  induction ts with
  | nil =>
    intro out ho _
    refine ⟨rfl, ho, ?_⟩
    intro i j
    exact ⟨(by rintro ⟨t, h, _⟩; cases h), fun _ => rfl⟩
  | cons t ts ih =>
    intro out ho hts
    obtain ⟨g1, g2, g3, g4⟩ := hts t (by simp)
    obtain ⟨out', h1, h2, h3⟩ := computeTile_spec f execute hexec field N M n m hf off hN hM mask hmask out ho t g1 g2 g3 g4
    obtain ⟨i1, i2, i3⟩ := ih out' h2 (fun t ht => hts t (List.mem_cons_of_mem _ ht))
    rw [computeTiles, h1]
    refine ⟨i1, i2, ?_⟩
    intro i j
    by_cases hin : ∃ t' ∈ ts, TileHas t' i j
    · refine ⟨fun _ => (i3 i j).1 hin, ?_⟩
      intro hno
      obtain ⟨t', ht', hh⟩ := hin
      exact absurd ⟨t', List.mem_cons_of_mem _ ht', hh⟩ hno
    · refine ⟨?_, ?_⟩
      · rintro ⟨t', ht', hh⟩
        rcases List.mem_cons.1 ht' with rfl | ht'
        · obtain ⟨x, hx, hx'⟩ := (h3 i j).1 hh
          exact ⟨x, hx, ((i3 i j).2 hin).trans hx'⟩
        · exact absurd ⟨t', ht', hh⟩ hin
      · intro hno
        have ht : ¬ TileHas t i j := fun hh => hno ⟨t, by simp, hh⟩
        exact ((i3 i j).2 hin).trans ((h3 i j).2 ht)

end Ocgis.Props
