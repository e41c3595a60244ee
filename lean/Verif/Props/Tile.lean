import Verif.Proofs.Tile
/-!
# C41: tiles; C42: tiled computation
-/
namespace Ocgis.Props
open Ocgis.Tile Ocgis.Spec

/-- C41: for every domain size, positive tile size and origin within the domain, the tiles are numbered consecutively from zero; every
row and column pair of the domain is in exactly one tile; no tile has any other pair; and no tile is empty or larger than the tile size. -/
theorem C41_tiles_partition (nrow ncol t o : Nat) (ht : 0 < t) (hr : o ≤ nrow) (hc : o ≤ ncol) :
    ∃ schema, tileSchema nrow ncol t o = .ok schema ∧
    schema.map Tile.id = List.range schema.length ∧
    (∀ i j, o ≤ i → i < nrow → o ≤ j → j < ncol →
      ∃ (k : Nat) (tile : Tile), schema[k]? = some tile ∧ TileHas tile i j ∧ ∀ (k' : Nat) (tile' : Tile), schema[k']? = some tile' → TileHas tile' i j → k' = k) ∧
    (∀ tile ∈ schema, ∀ i j, TileHas tile i j → o ≤ i ∧ i < nrow ∧ o ≤ j ∧ j < ncol) ∧
    (∀ tile ∈ schema, tile.row.1 < tile.row.2 ∧ tile.row.2 ≤ tile.row.1 + t ∧ tile.col.1 < tile.col.2 ∧ tile.col.2 ≤ tile.col.1 + t) := by
  obtain ⟨schema, he, hlen, hget⟩ := tileSchema_eq nrow ncol t o ht hr hc
  refine ⟨schema, he, ?_, ?_, ?_, ?_⟩
  · apply List.ext_getElem
    · simp
    · intro k h1 h2
      have hk : k < schema.length := by simpa using h1
      simp only [List.getElem_map, List.getElem_range]
      exact (hget k _ (List.getElem?_eq_getElem hk)).1
  · intro i j hi hin hj hjn
    obtain ⟨a1, a2, a3⟩ := (dim_cover nrow t o i ht hi hin _).2 rfl
    obtain ⟨b1, b2, b3⟩ := (dim_cover ncol t o j ht hj hjn _).2 rfl
    have uniq : ∀ (k : Nat) (tile : Tile), schema[k]? = some tile → TileHas tile i j →
        k = (i - o) / t * ((ncol - o + t - 1) / t) + (j - o) / t := by
      intro k tile hk hh
      obtain ⟨_, a, b, hkab, ha, hb, hrow, hcol⟩ := hget k tile hk
      obtain ⟨x1, x2, x3, x4⟩ := hh
      rw [hrow] at x1 x2
      rw [hcol] at x3 x4
      have ea := (dim_cover nrow t o i ht hi hin a).1 ⟨ha, x1, x2⟩
      have eb := (dim_cover ncol t o j ht hj hjn b).1 ⟨hb, x3, x4⟩
      rw [hkab, ea, eb]
    have hklt : (i - o) / t * ((ncol - o + t - 1) / t) + (j - o) / t < schema.length := by
      rw [hlen]
      have := Nat.mul_le_mul_right ((ncol - o + t - 1) / t) (Nat.succ_le_of_lt a1)
      rw [Nat.succ_mul] at this
      omega
    refine ⟨_, _, List.getElem?_eq_getElem hklt, ?_, ?_⟩
    · obtain ⟨_, a, b, hkab, ha, hb, hrow, hcol⟩ := hget _ _ (List.getElem?_eq_getElem hklt)
      have hC0 : 0 < (ncol - o + t - 1) / t := by omega
      have ea : a = (i - o) / t := by
        have := congrArg (· / ((ncol - o + t - 1) / t)) hkab
        rw [Nat.add_comm, Nat.add_mul_div_right _ _ hC0, Nat.div_eq_of_lt b1, Nat.add_comm (a * _), Nat.add_mul_div_right _ _ hC0,
          Nat.div_eq_of_lt hb] at this
        omega
      have eb : b = (j - o) / t := by
        rw [ea] at hkab
        omega
      subst ea eb
      refine ⟨?_, ?_, ?_, ?_⟩
      · rw [hrow]; exact a2
      · rw [hrow]; exact a3
      · rw [hcol]; exact b2
      · rw [hcol]; exact b3
    · intro k' tile' hk' hh'
      exact uniq k' tile' hk' hh'
  · intro tile htile i j hh
    obtain ⟨k, hk⟩ := List.getElem?_of_mem htile
    obtain ⟨_, a, b, hkab, ha, hb, hrow, hcol⟩ := hget k tile hk
    obtain ⟨x1, x2, x3, x4⟩ := hh
    rw [hrow] at x1 x2
    rw [hcol] at x3 x4
    simp only at x1 x2 x3 x4
    omega
  · intro tile htile
    obtain ⟨k, hk⟩ := List.getElem?_of_mem htile
    obtain ⟨_, a, b, hkab, ha, hb, hrow, hcol⟩ := hget k tile hk
    have h1 := (tile_count _ _ _ ht).1 ha
    have h2 := (tile_count _ _ _ ht).1 hb
    rw [hrow, hcol]
    simp only [Nat.succ_mul]
    omega

example : tileSchema 3 5 2 0 = .ok [⟨0, (0, 2), (0, 2)⟩, ⟨1, (0, 2), (2, 4)⟩, ⟨2, (0, 2), (4, 5)⟩, ⟨3, (2, 3), (0, 2)⟩,
    ⟨4, (2, 3), (2, 4)⟩, ⟨5, (2, 3), (4, 5)⟩] := by decide

/-! ## C42 -/

/-- C42: for every field, per-cell function, offset of the spatial subset, spatial mask, domain size and positive tile size, and whatever
the template file holds, the tiled computation succeeds, keeps the shape, and leaves in every cell the function of the field's cell at that
place, masked if the function's result or the spatial mask is. -/
theorem C42_tiled_equals_whole {α β : Type _} (f : α → Cell β) (execute : List (List α) → Res (List (List (Cell β))))
    (hexec : ∀ g, execute g = .ok (g.map (·.map f))) (field : List (List α)) (N M n m : Nat) (hf : HasShape field N M) (off : Nat × Nat)
    (hN : off.1 + n ≤ N) (hM : off.2 + m ≤ M) (mask : Option (List (List Bool))) (hmask : ∀ mk, mask = some mk → HasShape mk n m)
    (flag : Bool) (t : Nat) (ht : 0 < t) (out : List (List (Cell β))) (ho : HasShape out n m) :
    (compute execute field off mask flag n m t out).err = none ∧
    HasShape (compute execute field off mask flag n m t out).out n m ∧
    ∀ i j, i < n → j < m → ∃ x, cellAt field (off.1 + i) (off.2 + j) = some x ∧
      cellAt (compute execute field off mask flag n m t out).out i j = some ((f x).1, maskedAt mask i j || (f x).2) := by
  obtain ⟨schema, hs, _, hcov, hin, hsz⟩ := C41_tiles_partition n m t 0 ht (by omega) (by omega)
  have hbd : ∀ tile ∈ schema, tile.row.1 ≤ tile.row.2 ∧ tile.row.2 ≤ n ∧ tile.col.1 ≤ tile.col.2 ∧ tile.col.2 ≤ m := by
    intro tile htile
    obtain ⟨s1, s2, s3, s4⟩ := hsz tile htile
    have := hin tile htile (tile.row.2 - 1) (tile.col.2 - 1) (by unfold TileHas; omega)
    omega
  obtain ⟨g1, g2, g3⟩ := computeTiles_spec f execute hexec field N M n m hf off hN hM mask hmask schema out ho hbd
  simp only [compute, hs]
  refine ⟨g1, g2, ?_⟩
  intro i j hi hj
  obtain ⟨k, tile, hk, hh, _⟩ := hcov i j (by omega) hi (by omega) hj
  exact (g3 i j).1 ⟨tile, List.mem_of_getElem? hk, hh⟩

example : (compute (fun g => .ok (g.map (·.map fun x => ((x * 10, x == 5) : Cell Nat)))) [[0, 0, 0, 0], [0, 1, 2, 3], [0, 4, 5, 6]] (1, 1)
    (some [[false, true, false], [false, false, false]]) true 2 3 2 [[(7, true), (7, true), (7, true)], [(7, true), (7, true), (7, true)]]).out =
    [[(10, false), (20, true), (30, false)], [(40, false), (50, true), (60, false)]] := by decide

/-- C42: the environment flag is what it was, whatever the operations do, also when they raise on one of the tiles; and an exception on a
tile ends the computation with it. -/
theorem C42_flag_restored {α β : Type _} (execute : List (List α) → Res (List (List (Cell β)))) (field : List (List α)) (off : Nat × Nat)
    (mask : Option (List (List Bool))) (flag : Bool) (n m t : Nat) (out : List (List (Cell β))) :
    (compute execute field off mask flag n m t out).flag = flag ∧
    (t = 0 → (compute execute field off mask flag n m t out).err = some .valueError ∧
      (compute execute field off mask flag n m t out).out = out) ∧
    (∀ schema e, tileSchema n m t 0 = .ok schema → (∀ g, execute g = .error e) → schema ≠ [] →
      (compute execute field off mask flag n m t out).err = some e) := by
  refine ⟨?_, ?_, ?_⟩
  · simp only [compute]
    split
    · rfl
    · rfl
  · rintro rfl
    exact ⟨rfl, rfl⟩
  · intro schema e hs he hne
    simp only [compute, hs]
    cases schema with
    | nil => exact absurd rfl hne
    | cons t ts => simp [computeTiles, computeTile, he, Except.bind, bind]

end Ocgis.Props
