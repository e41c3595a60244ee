import Verif.Model.UriSort
import Verif.Spec.UriSort
namespace Ocgis.Proofs.UriSort
open Ocgis.UriSort Spec

theorem mem_put {α} (d : List (Int × α)) (k : Int) (v : α) (hd : (d.map (·.1)).Nodup) (p : Int × α) :
    p ∈ put d k v ↔ p = (k, v) ∨ (p ∈ d ∧ p.1 ≠ k) := by
  induction d with
  | nil => simp [put]
  | cons x d ih =>
    obtain ⟨k', v'⟩ := x
    simp only [List.map_cons, List.nodup_cons, List.mem_map, not_exists, not_and] at hd
    rw [put]
    split
    · next h =>
      subst h
      simp only [List.mem_cons]
      constructor
      · rintro (rfl | h)
        · exact Or.inl rfl
        · exact Or.inr ⟨Or.inr h, hd.1 p h⟩
      · rintro (rfl | ⟨rfl | h, h'⟩)
        · exact Or.inl rfl
        · exact absurd rfl h'
        · exact Or.inr h
    · next h =>
      simp only [List.mem_cons, ih hd.2]
      constructor
      · rintro (rfl | rfl | ⟨h1, h2⟩)
        · exact Or.inr ⟨Or.inl rfl, h⟩
        · exact Or.inl rfl
        · exact Or.inr ⟨Or.inr h1, h2⟩
      · rintro (rfl | ⟨rfl | h1, h2⟩)
        · exact Or.inr (Or.inl rfl)
        · exact Or.inl rfl
        · exact Or.inr (Or.inr ⟨h1, h2⟩)

theorem nodup_put {α} (d : List (Int × α)) (k : Int) (v : α) (hd : (d.map (·.1)).Nodup) : ((put d k v).map (·.1)).Nodup := by
  induction d with
  | nil => simp [put]
  | cons x d ih =>
    obtain ⟨k', v'⟩ := x
    rw [put]
    split
    · exact hd
    · next h =>
      have hd' := hd
      simp only [List.map_cons, List.nodup_cons] at hd ⊢
      refine ⟨?_, ih hd.2⟩
      intro hm
      obtain ⟨p, hp, e⟩ := List.mem_map.1 hm
      rcases (mem_put d k v hd.2 p).1 hp with rfl | ⟨h1, _⟩
      · exact h e.symm
      · exact hd.1 (List.mem_map.2 ⟨p, h1, e⟩)

theorem last_concat {α} (last : α → Int) (l : List α) (x f : α) :
    LastWithEnd last (l ++ [x]) f ↔ f = x ∨ (LastWithEnd last l f ∧ last f ≠ last x) := by
  constructor
  · rintro ⟨b, a, e, h⟩
    rcases List.eq_nil_or_concat a with rfl | ⟨a', y, rfl⟩
    · have := List.append_inj' e rfl
      exact Or.inl (by simpa using this.2.symm)
    · have e' : l ++ [x] = (b ++ f :: a') ++ [y] := by simpa using e
      have := List.append_inj' e' rfl
      have hy : x = y := by simpa using this.2
      subst hy
      exact Or.inr ⟨⟨b, a', this.1, fun g hg => h g (by simp [hg])⟩, fun hh => h x (by simp) hh.symm⟩
  · rintro (rfl | ⟨⟨b, a, rfl, h⟩, hx⟩)
    · exact ⟨l, [], by simp, by simp⟩
    · refine ⟨b, a ++ [x], by simp, fun g hg => ?_⟩
      rcases List.mem_append.1 hg with hg | hg
      · exact h g hg
      · rw [List.mem_singleton.1 hg]
        exact fun e => hx e.symm

theorem table_inv {α} (last : α → Int) : ∀ (n : Nat) (files : List α), files.length = n → ((table last files).map (·.1)).Nodup ∧
    ∀ p, p ∈ table last files ↔ p.1 = last p.2 ∧ LastWithEnd last files p.2 := by
  intro n
  induction n with
  | zero =>
    intro files h
    rw [List.length_eq_zero_iff] at h
    subst h
    simp [table, LastWithEnd]
  | succ n ih =>
    intro files h
    rcases List.eq_nil_or_concat files with rfl | ⟨l, x, rfl⟩
    · simp at h
    · obtain ⟨h1, h2⟩ := ih l (by simpa using h)
      have e : table last (l ++ [x]) = put (table last l) (last x) x := by simp [table, List.foldl_append]
      simp only [List.concat_eq_append] at h ⊢
      rw [e]
      refine ⟨nodup_put _ _ _ h1, fun p => ?_⟩
      rw [mem_put _ _ _ h1, h2, last_concat]
      constructor
      · rintro (rfl | ⟨⟨a, b⟩, c⟩)
        · exact ⟨rfl, Or.inl rfl⟩
        · exact ⟨a, Or.inr ⟨b, a ▸ c⟩⟩
      · rintro ⟨a, b | ⟨b, c⟩⟩
        · exact Or.inl (Prod.ext (by rw [a, b]) b)
        · exact Or.inr ⟨⟨a, b⟩, a ▸ c⟩

theorem lookup_mem {α} (d : List (Int × α)) (hd : (d.map (·.1)).Nodup) (k : Int) (v : α) : d.lookup k = some v ↔ (k, v) ∈ d := by
  induction d with
  | nil => simp
  | cons x d ih =>
    obtain ⟨k', v'⟩ := x
    simp only [List.map_cons, List.nodup_cons, List.mem_map, not_exists, not_and] at hd
    rw [List.lookup_cons]
    split
    · next h =>
      have : k = k' := by simpa using h
      subst this
      simp only [Option.some.injEq, List.mem_cons, Prod.mk.injEq, true_and]
      constructor
      · exact fun e => Or.inl e.symm
      · rintro (e | e)
        · exact e.symm
        · exact absurd rfl (hd.1 _ e)
    · next h =>
      have : k ≠ k' := by simpa using h
      rw [ih hd.2]
      simp [this]

theorem insertKey_perm (k : Int) (l : List Int) : (insertKey k l).Perm (k :: l) := by
  induction l with
  | nil => exact .refl _
  | cons x l ih =>
    rw [insertKey]
    split
    · exact .refl _
    · exact (ih.cons x).trans (.swap ..)

theorem sortKeys_perm (l : List Int) : (sortKeys l).Perm l := by
  induction l with
  | nil => exact .refl _
  | cons x l ih => exact (insertKey_perm x _).trans (ih.cons x)

theorem insertKey_sorted (k : Int) (l : List Int) (h : l.Pairwise (· ≤ ·)) : (insertKey k l).Pairwise (· ≤ ·) := by
  induction l with
  | nil => simp [insertKey]
  | cons x l ih =>
    rw [List.pairwise_cons] at h
    rw [insertKey]
    split
    · next hk =>
      refine List.pairwise_cons.2 ⟨fun y hy => ?_, List.pairwise_cons.2 h⟩
      rcases List.mem_cons.1 hy with rfl | hy
      · exact hk
      · have := h.1 y hy
        omega
    · next hk =>
      refine List.pairwise_cons.2 ⟨fun y hy => ?_, ih h.2⟩
      rcases List.mem_cons.1 ((insertKey_perm k l).mem_iff.1 hy) with rfl | hy
      · omega
      · exact h.1 y hy

theorem sortKeys_sorted (l : List Int) : (sortKeys l).Pairwise (· ≤ ·) := by
  induction l with
  | nil => exact .nil
  | cons x l ih => exact insertKey_sorted x _ ih

theorem sortKeys_strict (l : List Int) (h : l.Nodup) : (sortKeys l).Pairwise (· < ·) := by
  have h1 := sortKeys_sorted l
  have h2 : (sortKeys l).Pairwise (· ≠ ·) := (sortKeys_perm l).nodup_iff.2 h
  exact (h1.and h2).imp fun h => by omega

/-- The table and the answer: the files that are last with their end. -/
theorem mem_sortFiles {α} (last : α → Int) (files : List α) (f : α) : f ∈ sortFiles last files ↔ LastWithEnd last files f := by
  obtain ⟨h1, h2⟩ := table_inv last _ files rfl
  simp only [sortFiles, List.mem_filterMap, (sortKeys_perm _).mem_iff, lookup_mem _ h1, h2]
  constructor
  · rintro ⟨k, _, _, h⟩
    exact h
  · intro h
    exact ⟨last f, List.mem_map.2 ⟨(last f, f), (h2 _).2 ⟨rfl, h⟩, rfl⟩, rfl, h⟩

theorem sortFiles_strict {α} (last : α → Int) (files : List α) : (sortFiles last files).Pairwise fun a b => last a < last b := by
  obtain ⟨h1, h2⟩ := table_inv last _ files rfl
  refine List.Pairwise.filterMap _ ?_ (sortKeys_strict _ h1)
  intro k k' hk b hb b' hb'
  have e1 := ((h2 _).1 ((lookup_mem _ h1 k b).1 hb)).1
  have e2 := ((h2 _).1 ((lookup_mem _ h1 k' b').1 hb')).1
  simp only at e1 e2
  omega

theorem last_exists {α} (last : α → Int) : ∀ (files : List α) (f : α), f ∈ files → ∃ g, last g = last f ∧ LastWithEnd last files g := by
  intro files
  induction files with
  | nil => intro f h; cases h
  | cons x l ih =>
    intro f h
    by_cases hx : ∃ y ∈ l, last y = last f
    · obtain ⟨y, hy, e⟩ := hx
      obtain ⟨g, e', b, a, rfl, hg⟩ := ih y hy
      exact ⟨g, e'.trans e, x :: b, a, rfl, hg⟩
    · rcases List.mem_cons.1 h with rfl | h
      · exact ⟨f, rfl, [], l, rfl, fun g hg e => hx ⟨g, hg, e⟩⟩
      · exact absurd ⟨f, h, rfl⟩ hx

end Ocgis.Proofs.UriSort
