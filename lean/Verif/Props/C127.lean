import Verif.Proofs.UriSort
/-!
# C127: Putting files in the order of their times
-/
namespace Ocgis.Props
open Spec Ocgis.UriSort Proofs.UriSort

/-- The files are in the order of their ends, and there is no file that was not given. -/
theorem C127_order {α} (last : α → Int) (files : List α) :
    InOrderOfEnds last (sortFiles last files) ∧ ∀ f ∈ sortFiles last files, f ∈ files := by
  refine ⟨(sortFiles_strict last files).imp fun h => by omega, fun f hf => ?_⟩
  obtain ⟨b, a, rfl, _⟩ := (mem_sortFiles last files f).1 hf
  simp

example : sortFiles (fun f : Nat => (f : Int) % 10) [13, 2, 21] = [21, 2, 13] := by decide +kernel

/-- If different files have different ends, the answer has the files, in another order. Missing: files with the same end (below). -/
theorem C127_all_partial {α} (last : α → Int) (files : List α) (hn : files.Nodup) (h : EndsDiffer last files) :
    (sortFiles last files).Perm files := by
  have hs : (sortFiles last files).Nodup := (sortFiles_strict last files).imp fun h e => by rw [e] at h; omega
  refine (List.perm_ext_iff_of_nodup hs hn).2 fun f => ?_
  constructor
  · exact (C127_order last files).2 f
  · intro hf
    obtain ⟨g, e, hg⟩ := last_exists last files f hf
    have : g = f := h g ((C127_order last files).2 g ((mem_sortFiles last files g).2 hg)) f hf e
    exact (mem_sortFiles last files f).2 (this ▸ hg)

example : [13, 2, 21].Nodup ∧ EndsDiffer (fun f : Nat => (f : Int) % 10) [13, 2, 21] := by
  refine ⟨by decide, ?_⟩
  unfold EndsDiffer
  decide

/-- Of the files with the same end only the one given last is in the answer: the others are dropped in silence. -/
theorem C127_ties_never {α} (last : α → Int) (files : List α) (f : α) : f ∈ sortFiles last files ↔ LastWithEnd last files f :=
  mem_sortFiles last files f

/-- Two different files with the same end are never both in the answer, and the time up to that end is never without a file. -/
theorem C127_dropped_never {α} (last : α → Int) (files : List α) (f g : α) (hf : f ∈ files) (hne : f ≠ g) (he : last f = last g) :
    ¬ (f ∈ sortFiles last files ∧ g ∈ sortFiles last files) ∧ ∃ k ∈ sortFiles last files, last k = last f := by
  refine ⟨?_, ?_⟩
  · rintro ⟨h1, h2⟩
    obtain ⟨n, h⟩ := table_inv last _ files rfl
    have e1 := (lookup_mem _ n _ _).2 ((h (last f, f)).2 ⟨rfl, (mem_sortFiles last files f).1 h1⟩)
    have e2 := (lookup_mem _ n _ _).2 ((h (last g, g)).2 ⟨rfl, (mem_sortFiles last files g).1 h2⟩)
    rw [he, e2] at e1
    exact hne (Option.some.inj e1).symm
  · obtain ⟨k, e, hk⟩ := last_exists last files f hf
    exact ⟨k, (mem_sortFiles last files k).2 hk, e⟩

example : sortFiles (fun f : Nat => (f : Int) % 10) [13, 2, 23] = [2, 23] := by decide +kernel

/-- A file given twice is in the answer once. -/
theorem C127_twice {α} (last : α → Int) (files : List α) : (sortFiles last files).Nodup :=
  (sortFiles_strict last files).imp fun h e => by rw [e] at h; omega

example : sortFiles (fun f : Nat => (f : Int)) [3, 2, 3] = [2, 3] := by decide +kernel

end Ocgis.Props
