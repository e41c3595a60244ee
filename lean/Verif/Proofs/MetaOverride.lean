import Verif.Spec.MetaOverride
namespace Ocgis.Proofs.MetaOverride
open Ocgis.MetaOverride Spec

theorem lookup_assign {α} (d : List (String × α)) (k : String) (v : α) (q : String) :
    (assign d k v).lookup q = if q = k then some v else d.lookup q := by
  induction d with
  | nil =>
    by_cases h : q = k
    · simp [assign, List.lookup_cons, h]
    · have h' : (q == k) = false := by simpa using h
      simp [assign, List.lookup_cons, h, h']
  | cons x d ih =>
    obtain ⟨k', v'⟩ := x
    rw [assign]
    by_cases h : k' = k
    · subst h
      by_cases hq : q = k'
      · simp [List.lookup_cons, hq]
      · have h' : (q == k') = false := by simpa using hq
        simp [List.lookup_cons, hq, h']
    · rw [if_neg h, List.lookup_cons, List.lookup_cons, ih]
      by_cases hq : q = k'
      · subst hq
        simp [h]
      · have : (q == k') = false := by simpa using hq
        rw [this]

theorem lookup_none {α} (d : List (String × α)) (k : String) (h : k ∉ d.map (·.1)) : d.lookup k = none := by
  induction d with
  | nil => rfl
  | cons x d ih =>
    simp only [List.map_cons, List.mem_cons, not_or] at h
    rw [List.lookup_cons, ih h.2]
    have : (k == x.1) = false := by simpa using h.1
    rw [this]

theorem lookup_update {α} (e : List (String × α)) (he : KeysOnce e) : ∀ (d : List (String × α)) (q : String),
    (updateBy d e).lookup q = match e.lookup q with
      | some v => some v
      | none => d.lookup q := by
  induction e with
  | nil => intro d q; rfl
  | cons x e ih =>
    intro d q
    obtain ⟨k, v⟩ := x
    simp only [KeysOnce, List.map_cons, List.nodup_cons] at he
    have := ih he.2 (assign d k v) q
    rw [updateBy] at this ⊢
    rw [List.foldl_cons, this, lookup_assign, List.lookup_cons]
    by_cases hq : q = k
    · subst hq
      rw [lookup_none e q he.1]
      simp
    · have h' : (q == k) = false := by simpa using hq
      rw [h', if_neg hq]

theorem any_flat {V} (d : List (String × V)) : ((flat d).any fun x => isDict x.2) = false := by
  simp [flat, isDict]

theorem leaves_flat {V} (d : List (String × V)) : leaves (flat d) = d := by
  induction d with
  | nil => rfl
  | cons x d ih =>
    rw [leaves] at ih ⊢
    simp only [flat, List.map_cons, List.filterMap_cons] at ih ⊢
    rw [ih]

theorem initial_dict {V} (other : List (String × Given V)) (h : (other.any fun x => isDict x.2) = true) (hk : KeysOnce other) (q : String) :
    (initial other).lookup q = match other.lookup q with
      | some v => some v
      | none => ([("variable", .dict []), ("field", .dict [])] : List (String × Given V)).lookup q := by
  rw [initial, mergeIn, if_pos h, lookup_update _ hk]
  cases other.lookup q <;> rfl

theorem updateBy_nil {α} (d : List (String × α)) : updateBy d [] = d := rfl

end Ocgis.Proofs.MetaOverride
