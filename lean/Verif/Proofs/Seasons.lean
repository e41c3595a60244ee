import Verif.Proofs.SeasonRegions
/-!
# Lemmas
-/
namespace Ocgis.Props
open Ocgis.Temporal Ocgis.Spec

/-- The key of a season that is not empty. -/
def keyOf (useMax : Bool) (s : List Int) : Int :=
  match s with
  | [] => 0
  | m :: ms => ms.foldl (fun a b => if useMax then max a b else min a b) m

theorem keyOf_spec (useMax : Bool) (s : List Int) (hs : s ≠ []) :
    keyOf useMax s ∈ s ∧ ∀ x ∈ s, if useMax then x ≤ keyOf useMax s else keyOf useMax s ≤ x := by
  cases s with
  | nil => exact absurd rfl hs
  | cons m ms =>
    simp only [keyOf]
    clear hs
    induction ms generalizing m with
    | nil => cases useMax <;> simp
    | cons a as ih =>
      simp only [List.foldl_cons]
      obtain ⟨h1, h2⟩ := ih (if useMax then max m a else min m a)
      refine ⟨?_, ?_⟩
      · rcases List.mem_cons.1 h1 with h | h
        · rw [h]; cases useMax
          · simp only [Bool.false_eq_true, if_false, List.mem_cons]
            rcases Int.le_total m a with hh | hh
            · left; omega
            · right; left; omega
          · simp only [if_true, List.mem_cons]
            rcases Int.le_total m a with hh | hh
            · right; left; omega
            · left; omega
        · exact List.mem_cons_of_mem _ (List.mem_cons_of_mem _ h)
      · intro x hx
        have hhead := h2 _ (List.mem_cons_self)
        have htail : ∀ x ∈ as, _ := fun x hx => h2 x (List.mem_cons_of_mem _ hx)
        simp only [List.mem_cons] at hx
        cases useMax
        · simp only [Bool.false_eq_true, if_false] at hhead htail ⊢
          rcases hx with rfl | rfl | hx
          · omega
          · omega
          · exact htail x hx
        · simp only [if_true] at hhead htail ⊢
          rcases hx with rfl | rfl | hx
          · omega
          · omega
          · exact htail x hx

theorem before_iff (useMax : Bool) (s t : List Int) (hs : s ≠ []) (ht : t ≠ []) :
    SeasonBefore useMax s t ↔ keyOf useMax s < keyOf useMax t := by
  obtain ⟨s1, s2⟩ := keyOf_spec useMax s hs
  obtain ⟨t1, t2⟩ := keyOf_spec useMax t ht
  cases useMax
  · simp only [SeasonBefore, Bool.false_eq_true, if_false] at *
    constructor
    · rintro ⟨x, hx, h⟩; have := h _ t1; have := s2 x hx; omega
    · intro h; exact ⟨_, s1, fun y hy => by have := t2 y hy; omega⟩
  · simp only [SeasonBefore, if_true] at *
    constructor
    · rintro ⟨y, hy, h⟩; have := h _ s1; have := t2 y hy; omega
    · intro h; exact ⟨_, t1, fun x hx => by have := s2 x hx; omega⟩

theorem keyMap_eq (useMax : Bool) (seasons : List (List Int)) (hne : ∀ s ∈ seasons, s ≠ []) :
    keyMap useMax seasons = .ok ((seasons.map fun s => (keyOf useMax s, s)).reverse) := by
  have : seasons.mapM (seasonKey useMax) = .ok (seasons.map (keyOf useMax)) := by
    apply Ocgis.Mpi.mapM_ok
    intro s hs
    cases s with
    | nil => exact absurd rfl (hne _ hs)
    | cons m ms => rfl
  simp only [keyMap]
  rw [this]
  show Except.ok _ = _
  congr 2
  rw [List.zip_map_left]
  clear this hne
  induction seasons with
  | nil => rfl
  | cons s ss ih => simp [ih]

theorem lookup_mem {β : Type _} (l : List (Int × β)) (k : Int) (hk : k ∈ l.map (·.1)) : ∃ v, l.lookup k = some v ∧ (k, v) ∈ l := by
  induction l with
  | nil => simp at hk
  | cons p ps ih =>
    obtain ⟨a, b⟩ := p
    rw [List.lookup_cons]
    by_cases h : k = a
    · subst h; exact ⟨b, by simp, by simp⟩
    · have : (k == a) = false := by simpa using h
      rw [this]
      simp only [List.map_cons, List.mem_cons] at hk
      obtain ⟨v, h1, h2⟩ := ih (hk.resolve_left h)
      exact ⟨v, h1, List.mem_cons_of_mem _ h2⟩

theorem holds_wanted (r : Region) (d : Date) : r.holds d = true ↔ Wanted r.month r.year d := by
  obtain ⟨m, y⟩ := r
  cases m <;> cases y <;> simp [Region.holds, Wanted]

theorem partBetween_within (lo up t : Int) (h : up = lo ∨ up = lo + 1) : partBetween lo up t = true ↔ t = lo := by
  unfold partBetween
  rcases h with rfl | rfl
  · simp; omega
  · rw [if_pos (by omega)]; simp only [Bool.and_eq_true, decide_eq_true_eq]
    rw [if_neg (by omega)]; omega

end Ocgis.Props
