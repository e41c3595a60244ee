import Verif.Proofs.ScripChunk
/-!
# C133: Chunks of a SCRIP grid
-/
namespace Ocgis.Props
open Spec Ocgis.ScripChunk Proofs.ScripChunk

/-- There are as many chunks as asked for, and every cell is in exactly one of them. Missing: that the chunker gets them (`C133_chunker_never`). -/
theorem C133_chunks_partial (lats : List Rat) (n : Nat) (hn : 0 < n) : ∃ chunks, slices lats n = .ok chunks ∧ chunks.length = n ∧
    (∀ m ∈ chunks, m.length = lats.length) ∧
    ∀ cell, cell < lats.length → ∃ i, InBand chunks i cell ∧ ∀ j, InBand chunks j cell → j = i := by
  refine ⟨_, if_neg (by omega), by rw [List.length_map, arraySplit_length], ?_, ?_⟩
  · intro m hm
    obtain ⟨p, _, rfl⟩ := List.mem_map.1 hm
    simp [selectOf]
  · intro c hc
    have hx := List.getElem?_eq_getElem hc
    obtain ⟨i, p, hp, hxp⟩ := some_piece lats n hn _ (List.getElem_mem hc)
    refine ⟨i, (in_chunk lats n i c _ hx).2 ⟨p, hp, hxp⟩, fun j hj => ?_⟩
    obtain ⟨q, hq, hxq⟩ := (in_chunk lats n j c _ hx).1 hj
    rcases Nat.lt_trichotomy i j with h | h | h
    · have := pieces_less _ n hn (uniqueSorted_sorted lats) i j h p q hp hq _ hxp _ hxq
      grind
    · exact h.symm
    · have := pieces_less _ n hn (uniqueSorted_sorted lats) j i h q p hq hp _ hxq _ hxp
      grind

example : slices [20, 10, 20, 30] 2 = .ok [[true, true, true, false], [false, false, false, true]] := by decide +kernel

/-- The chunks go from south to north: a cell in an earlier chunk is south of one in a later chunk, so that cells of one latitude are together. -/
theorem C133_bands (lats : List Rat) (n : Nat) (chunks : List (List Bool)) (h : slices lats n = .ok chunks) (i j c d : Nat) (hij : i < j)
    (hi : InBand chunks i c) (hj : InBand chunks j d) : ∃ x y, lats[c]? = some x ∧ lats[d]? = some y ∧ x < y := by
  rw [slices] at h
  split at h
  · cases h
  · next hn =>
    cases h
    have some_of : ∀ k c, InBand ((arraySplit (uniqueSorted lats) n).map (selectOf lats)) k c → ∃ x, lats[c]? = some x := by
      rintro k c ⟨m, hm, hc⟩
      obtain ⟨p, _, rfl⟩ := List.mem_map.1 (List.mem_of_getElem? hm)
      rw [selectOf, List.getElem?_map] at hc
      cases hx : lats[c]? with
      | none => simp [hx] at hc
      | some x => exact ⟨x, rfl⟩
    obtain ⟨x, hx⟩ := some_of i c hi
    obtain ⟨y, hy⟩ := some_of j d hj
    obtain ⟨p, hp, hxp⟩ := (in_chunk lats n i c x hx).1 hi
    obtain ⟨q, hq, hyq⟩ := (in_chunk lats n j d y hy).1 hj
    exact ⟨x, y, hx, hy, pieces_less _ n (by omega) (uniqueSorted_sorted lats) i j hij p q hp hq x hxp y hyq⟩

/-- With more chunks than different latitudes, the last chunk has no cell. -/
theorem C133_empty_never (lats : List Rat) (n : Nat) (h : distinctCount lats < n) : ∃ chunks, slices lats n = .ok chunks ∧
    chunks[n - 1]? = some (List.replicate lats.length false) := by
  refine ⟨_, if_neg (by omega), ?_⟩
  rw [List.getElem?_map, last_empty _ n (by rw [count_unique]; exact h)]
  simp [selectOf, List.eq_replicate_iff]

example : distinctCount [20, 10, 20] < 3 ∧ slices [20, 10, 20] 3 = .ok [[false, true, false], [true, false, true], [false, false, false]] := by
  decide +kernel

/-- The chunker never gets the chunks: its call is refused. -/
theorem C133_chunker_never (lats : List Rat) (n : Nat) (yieldIdx : Option Nat) : slicesByChunker lats n yieldIdx = .error .typeError := by
  simp [slicesByChunker, callWith, driverParameters]

example : slices [20, 10] 2 = .ok [[false, true], [true, false]] ∧ slicesByChunker [20, 10] 2 none = .error .typeError := by decide +kernel

end Ocgis.Props
