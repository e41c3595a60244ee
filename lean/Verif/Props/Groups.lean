import Verif.Proofs.Groups

namespace Ocgis.Props
open Ocgis Ocgis.Groups Ocgis.Spec

/-- **C60**: for every group tree there is a depth from which on (the interpreter's recursion limit exceeding the
nesting) the enumeration of the group hierarchy succeeds and yields key sequences of paths such that: no path
comes twice; the paths are exactly those leading to a group, the root's included; a group comes before all the
groups nested in it; and looking up an enumerated key sequence returns the group at its path. -/
theorem C60_enumeration {α : Type} (root : G α) (hd : Distinct root) :
    ∃ depth, Shallower depth root ∧ ∀ n, Shallower n root →
      ∃ ps : List (List String), iterAllGroupKeys n root = .ok (ps.map keysOf)
        ∧ ps.Nodup
        ∧ (∀ p, p ∈ ps ↔ ∃ g, GroupAt root p g)
        ∧ (∀ (i j : Nat) p t, ps[i]? = some p → ps[j]? = some (p ++ t) → i ≤ j)
        ∧ ∀ p ∈ ps, ∃ g, getGroup root (.keys (keysOf p)) = .ok g ∧ GroupAt root p g := by
  obtain ⟨depth, hdep⟩ := exists_shallower root
  refine ⟨depth, hdep, fun n hn => ⟨pathsTo n root, ?_, nodup_pathsTo n root hd, mem_pathsTo n root hn, ?_, ?_⟩⟩
  · have := iterAll_eq root hd n [] root (.here _) hn
    exact this
  · intro i j p t hi hj
    rcases Nat.lt_or_ge j i with hlt | h
    · exfalso
      obtain ⟨hi', hi⟩ := List.getElem?_eq_some_iff.1 hi
      obtain ⟨hj', hj⟩ := List.getElem?_eq_some_iff.1 hj
      have h1 := List.pairwise_iff_getElem.1 (parents_pathsTo n root hd) j i hj' hi' hlt
      have h2 := List.pairwise_iff_getElem.1 (nodup_pathsTo n root hd) j i hj' hi' hlt
      rw [hi, hj] at h1 h2
      exact h1 ⟨t, fun ht => h2 (by simp [ht]), rfl⟩
    · exact h
  · intro p hp
    obtain ⟨g, hg⟩ := (mem_pathsTo n root hn p).1 hp
    exact ⟨g, by simpa [getGroup, normalise, keysOf] using (descend_iff p root hd g).2 hg, hg⟩

/-- A root with groups `a` (holding `b`) and `b`. -/
def sampleTree : G Nat := .mk 0 [("a", .mk 1 [("b", .mk 2 [])]), ("b", .mk 3 [])]

example : Distinct sampleTree := by
  refine .mk _ _ (by decide) ?_
  intro c hc
  simp only [List.mem_cons, List.not_mem_nil, or_false] at hc
  rcases hc with rfl | rfl
  · refine .mk _ _ (by decide) ?_
    intro c hc
    simp only [List.mem_cons, List.not_mem_nil, or_false] at hc
    subst hc
    exact .mk _ _ (by decide) (by simp)
  · exact .mk _ _ (by decide) (by simp)
example : iterAllGroupKeys 3 sampleTree
    = .ok ([[], ["a"], ["a", "b"], ["b"]].map keysOf) := by rfl

/-- **C60 (lookup)**: a key sequence of names, with or without the leading `None`, `None` alone, or a single name
looks up the group at that path, and a path that leads nowhere is refused with a `KeyError`; the empty list is
refused. -/
theorem C60_lookup {α : Type} (root : G α) (hd : Distinct root) :
    (∀ p g, getGroup root (.keys (keysOf p)) = .ok g ↔ GroupAt root p g)
    ∧ (∀ p g, p ≠ [] → (getGroup root (.keys (p.map some)) = .ok g ↔ GroupAt root p g))
    ∧ (∀ s g, getGroup root (.name s) = .ok g ↔ GroupAt root [s] g)
    ∧ getGroup root .none = .ok root
    ∧ (∀ p, (¬ ∃ g, GroupAt root p g) → getGroup root (.keys (keysOf p)) = .error .keyError)
    ∧ getGroup root (.keys []) = .error .indexError := by
  have key : ∀ p g, getGroup root (.keys (keysOf p)) = .ok g ↔ GroupAt root p g := fun p g => by
    simpa [getGroup, normalise, keysOf] using descend_iff p root hd g
  refine ⟨key, ?_, ?_, rfl, ?_, rfl⟩
  · intro p g hp
    cases p with
    | nil => exact absurd rfl hp
    | cons k p => rw [← key]; simp [getGroup, normalise, keysOf]
  · intro s g; rw [← key]; simp [getGroup, normalise, keysOf]
  · intro p hp
    have err : ∀ (p : List String) (g : G α) (e : PyErr), descend g (p.map some) = .error e → e = .keyError := by
      intro p
      induction p with
      | nil => intro g e h; simp [descend] at h
      | cons k p ih =>
        intro g e h
        simp only [List.map_cons, descend] at h
        split at h
        · exact ih _ _ h
        · cases h; rfl
    cases h : getGroup root (.keys (keysOf p)) with
    | ok g => exact absurd ⟨g, (key p g).1 h⟩ hp
    | error e =>
      have h' : descend root (p.map some) = .error e := by simpa [getGroup, normalise, keysOf] using h
      rw [err p root e h']

example : getGroup sampleTree (.keys [some "a", some "b"]) = .ok (.mk 2 []) := by rfl
example : getGroup sampleTree (.keys [some "b", some "a"]) = .error .keyError := by rfl

/-- **C60 (creation)**: looking up a path with creation leaves a tree in which the path is present.  If it was
present before, nothing changes; otherwise the groups are exactly the old ones with their old contents, the given
group (with its subgroups) at the path, and empty groups on the way to it where there were none. -/
theorem C60_create {α : Type} (empty : α) (last root : G α) (hl : Distinct last) (hd : Distinct root) (p : List String) :
    Distinct (create empty last root p)
    ∧ ((∃ g, GroupAt root p g) → create empty last root p = root)
    ∧ ((¬ ∃ g, GroupAt root p g) → ∀ q x, HasData (create empty last root p) q x ↔
        HasData root q x ∨ ((¬ ∃ g, GroupAt root q g) ∧
          ((∃ r, q = p ++ r ∧ HasData last r x) ∨ (∃ r, r ≠ [] ∧ p = q ++ r ∧ x = empty)))) := by
  have hc := create_distinct empty last hl p root hd
  have hex : ∀ q, (∃ g, GroupAt root q g) ↔ (find root q).isSome := fun q => by
    rw [Option.isSome_iff_exists]
    exact ⟨fun ⟨g, h⟩ => ⟨g, (find_iff q root hd g).2 h⟩, fun ⟨g, h⟩ => ⟨g, (find_iff q root hd g).1 h⟩⟩
  refine ⟨hc, fun h => create_existing _ _ _ _ ((hex p).1 h), fun h q x => ?_⟩
  have hn : find root p = none := by
    have := mt (hex p).2 h
    simpa using this
  rw [hasData_iff _ hc, hasData_iff _ hd, find_create _ _ _ _ hn, hex q]
  cases hq : find root q with
  | some g => simp
  | none =>
    simp only [Option.isSome_none, Bool.false_eq_true, Option.none_or, Option.map_none, reduceCtorEq, false_or, not_false_eq_true, true_and]
    by_cases h1 : p <+: q
    · obtain ⟨r, rfl⟩ := h1
      rw [if_pos (List.prefix_append _ _), List.drop_left, ← hasData_iff _ hl]
      constructor
      · intro h'; exact .inl ⟨r, rfl, h'⟩
      · rintro (⟨r', e, h'⟩ | ⟨r', hr, e, _⟩)
        · rw [List.append_cancel_left_eq] at e; subst e; exact h'
        · have := congrArg List.length e
          cases r' with
          | nil => exact absurd rfl hr
          | cons => simp at this
    · rw [if_neg h1]
      by_cases h2 : q <+: p
      · rw [if_pos h2]
        obtain ⟨r, rfl⟩ := h2
        simp only [Option.some.injEq]
        constructor
        · rintro rfl
          refine .inr ⟨r, ?_, rfl, rfl⟩
          rintro rfl
          simp at h1
        · rintro (⟨r', e, _⟩ | ⟨_, _, _, h⟩)
          · exact absurd ⟨r', e.symm⟩ h1
          · exact h.symm
      · rw [if_neg h2]
        simp only [reduceCtorEq, false_iff, not_or, not_exists, not_and]
        refine ⟨fun r e => absurd ⟨r, e.symm⟩ h1, fun r _ e => absurd ⟨r, e.symm⟩ h2⟩

example : ¬ ∃ g, GroupAt sampleTree ["b", "a", "c"] g := by
  rintro ⟨g, h⟩
  cases h with | down _ _ _ c _ _ hc h =>
    simp only [List.mem_cons, Prod.mk.injEq, List.not_mem_nil, or_false] at hc
    rcases hc with ⟨h', _⟩ | ⟨_, rfl⟩
    · exact absurd h' (by decide)
    · cases h with | down _ _ _ c _ _ hc h => simp at hc
example : create 0 (.mk 9 []) sampleTree ["b", "a", "c"]
    = .mk 0 [("a", .mk 1 [("b", .mk 2 [])]), ("b", .mk 3 [("a", .mk 0 [("c", .mk 9 [])])])] := by rfl

end Ocgis.Props
