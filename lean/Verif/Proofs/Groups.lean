import Verif.Spec.Groups
/-!
# Lemmas
-/
namespace Ocgis.Props
open Ocgis Ocgis.Groups Ocgis.Spec

theorem distinct_mk {α} {d : α} {gs} (h : Distinct (G.mk d gs)) : (gs.map Prod.fst).Nodup ∧ ∀ c ∈ gs, Distinct c.2 := by
  cases h with | mk _ _ h1 h2 => exact ⟨h1, h2⟩

theorem lookup_iff {α} (gs : List (String × G α)) (h : (gs.map Prod.fst).Nodup) (k : String) (c : G α) :
    lookup gs k = some c ↔ (k, c) ∈ gs := by
  induction gs with
  | nil => simp [lookup]
  | cons a gs ih =>
    obtain ⟨j, e⟩ := a
    simp only [List.map_cons, List.nodup_cons] at h
    by_cases hjk : j = k
    · subst hjk
      simp only [lookup, List.find?_cons, beq_self_eq_true, Option.map_some, Option.some.injEq, List.mem_cons, Prod.mk.injEq, true_and]
      constructor
      · rintro rfl; simp
      · rintro (rfl | h')
        · rfl
        · exact absurd (List.mem_map.2 ⟨_, h', rfl⟩) h.1
    · have := ih h.2
      have hb : (j == k) = false := by simpa using hjk
      simp only [lookup, List.find?_cons, hb, List.mem_cons, Prod.mk.injEq] at this ⊢
      rw [this]
      constructor
      · exact Or.inr
      · rintro (⟨rfl, _⟩ | h')
        · exact absurd rfl hjk
        · exact h'

theorem descend_iff {α} (p : List String) : ∀ (g : G α), Distinct g → ∀ h, descend g (p.map some) = .ok h ↔ GroupAt g p h := by
  induction p with
  | nil =>
    intro g _ h
    simp only [List.map_nil, descend, Except.ok.injEq]
    constructor
    · rintro rfl; exact .here _
    · intro h'; cases h'; rfl
  | cons k p ih =>
    intro g hg h
    obtain ⟨d, gs⟩ := g
    obtain ⟨h1, h2⟩ := distinct_mk hg
    simp only [List.map_cons, descend, G.groups]
    cases hl : lookup gs k with
    | none =>
      simp only [reduceCtorEq, false_iff]
      intro h'
      cases h' with | down _ _ _ c _ _ hc _ => rw [(lookup_iff gs h1 k c).2 hc] at hl; cases hl
    | some c =>
      have hc := (lookup_iff gs h1 k c).1 hl
      simp only
      rw [ih c (h2 _ hc)]
      constructor
      · intro h'; exact .down _ _ _ _ _ _ hc h'
      · intro h'
        cases h' with | down _ _ _ c' _ _ hc' h'' =>
          rw [(lookup_iff gs h1 k c').2 hc'] at hl
          cases hl; exact h''

theorem groupAt_append {α} {g h i : G α} {p q : List String} (h1 : GroupAt g p h) (h2 : GroupAt h q i) : GroupAt g (p ++ q) i := by
  induction h1 with
  | here => exact h2
  | down d gs k c p h hc _ ih => exact .down _ _ _ _ _ _ hc (ih h2)

theorem groupAt_distinct {α} {g h : G α} {p : List String} (h1 : GroupAt g p h) (hd : Distinct g) : Distinct h := by
  induction h1 with
  | here => exact hd
  | down d gs k c p h hc _ ih => exact ih ((distinct_mk hd).2 _ hc)

/-- The paths into a tree, parents first, to a depth. -/
def pathsTo {α : Type} : Nat → G α → List (List String)
  | 0, _ => []
  | n + 1, g => [] :: g.groups.flatMap fun c => (pathsTo n c.2).map (c.1 :: ·)

theorem shallower_child {α} {n : Nat} {d : α} {gs} (h : Shallower (n + 1) (G.mk d gs)) : ∀ c ∈ gs, Shallower n c.2 := by
  intro c hc p i hi
  have := h (c.1 :: p) i (.down _ _ _ _ _ _ hc hi)
  simpa using this

theorem iterAll_eq {α} (root : G α) (hd : Distinct root) (n : Nat) : ∀ (p : List String) (g : G α), GroupAt root p g → Shallower n g →
    iterAll n root (keysOf p) = .ok ((pathsTo n g).map fun q => keysOf (p ++ q)) := by
  induction n with
  | zero => intro p g _ hs; exact absurd (hs [] g (.here g)) (by simp)
  | succ n ih =>
    intro p g hp hs
    have hg : getGroup root (.keys (keysOf p)) = .ok g := by
      simpa [getGroup, normalise, keysOf] using (descend_iff p root hd g).2 hp
    obtain ⟨d, gs⟩ := g
    have hm : (gs.map fun c => keysOf p ++ [some c.1]).mapM (iterAll n root)
        = .ok (gs.map fun c => (pathsTo n c.2).map fun q => keysOf (p ++ c.1 :: q)) := by
      have hs' := shallower_child hs
      have hp' : ∀ c ∈ gs, GroupAt root (p ++ [c.1]) c.2 := fun c hc =>
        groupAt_append hp (.down _ _ _ _ _ _ hc (.here _))
      clear hg hp hs
      induction gs with
      | nil => rfl
      | cons c gs ihg =>
        have h1 := ih (p ++ [c.1]) c.2 (hp' c (by simp)) (hs' c (by simp))
        have h2 := ihg (fun c hc => hs' c (by simp [hc])) (fun c hc => hp' c (by simp [hc]))
        have e : keysOf p ++ [some c.1] = keysOf (p ++ [c.1]) := by simp [keysOf]
        rw [List.map_cons, List.mapM_cons, e, h1, h2]
        simp only [List.map_cons, List.append_assoc, List.cons_append, List.nil_append]
        rfl
    rw [iterAll, groupKeys, hg]
    simp only [G.groups, hm, pathsTo, List.map_cons, List.append_nil, List.map_flatMap, List.map_map]
    rw [List.flatMap_def]
    rfl

theorem mem_pathsTo {α} (n : Nat) : ∀ (g : G α), Shallower n g → ∀ p, p ∈ pathsTo n g ↔ ∃ h, GroupAt g p h := by
  induction n with
  | zero => intro g hs; exact absurd (hs [] g (.here g)) (by simp)
  | succ n ih =>
    intro g hs p
    obtain ⟨d, gs⟩ := g
    have hs' := shallower_child hs
    simp only [pathsTo, List.mem_cons, List.mem_flatMap, List.mem_map, G.groups]
    constructor
    · rintro (rfl | ⟨c, hc, q, hq, rfl⟩)
      · exact ⟨_, .here _⟩
      · obtain ⟨h, hh⟩ := (ih c.2 (hs' c hc) q).1 hq
        exact ⟨h, .down _ _ _ _ _ _ hc hh⟩
    · rintro ⟨h, hh⟩
      cases hh with
      | here => exact .inl rfl
      | down _ _ k c q _ hc hq => exact .inr ⟨(k, c), hc, q, (ih c (hs' _ hc) q).2 ⟨h, hq⟩, rfl⟩

theorem nodup_pathsTo {α} (n : Nat) : ∀ (g : G α), Distinct g → (pathsTo n g).Nodup := by
  induction n with
  | zero => intro g _; exact .nil
  | succ n ih =>
    intro g hd
    obtain ⟨d, gs⟩ := g
    obtain ⟨h1, h2⟩ := distinct_mk hd
    simp only [pathsTo, List.nodup_cons, List.mem_flatMap, List.mem_map, not_exists, not_and, G.groups]
    refine ⟨by simp, ?_⟩
    rw [List.Nodup, List.pairwise_flatMap]
    refine ⟨fun c hc => ?_, ?_⟩
    · rw [List.pairwise_map]
      exact (ih c.2 (h2 c hc)).imp fun h e => h (by simpa using e)
    · rw [List.Nodup, List.pairwise_map] at h1
      refine h1.imp fun hne x hx y hy e => ?_
      simp only [List.mem_map] at hx hy
      obtain ⟨q, _, rfl⟩ := hx
      obtain ⟨r, _, rfl⟩ := hy
      simp only [List.cons.injEq] at e
      exact hne e.1

theorem parents_pathsTo {α} (n : Nat) : ∀ (g : G α), Distinct g →
    (pathsTo n g).Pairwise fun a b => ¬ ∃ t, t ≠ [] ∧ a = b ++ t := by
  induction n with
  | zero => intro g _; exact .nil
  | succ n ih =>
    intro g hd
    obtain ⟨d, gs⟩ := g
    obtain ⟨h1, h2⟩ := distinct_mk hd
    simp only [pathsTo, List.pairwise_cons, G.groups]
    refine ⟨?_, ?_⟩
    · rintro b _ ⟨t, ht, e⟩
      simp only [List.nil_eq, List.append_eq_nil_iff] at e
      exact ht e.2
    · rw [List.pairwise_flatMap]
      refine ⟨fun c hc => ?_, ?_⟩
      · rw [List.pairwise_map]
        refine (ih c.2 (h2 c hc)).imp fun h => ?_
        rintro ⟨t, ht, e⟩
        exact h ⟨t, ht, by simpa using e⟩
      · rw [List.Nodup, List.pairwise_map] at h1
        refine h1.imp fun hne x hx y hy => ?_
        rintro ⟨t, ht, e⟩
        simp only [List.mem_map] at hx hy
        obtain ⟨q, _, rfl⟩ := hx
        obtain ⟨r, _, rfl⟩ := hy
        simp only [List.cons_append, List.cons.injEq] at e
        exact hne e.1

/-- Every tree has a depth. -/
theorem exists_shallower {α} : ∀ (g : G α), ∃ n, Shallower n g
  | .mk d gs => by
    have ih : ∀ c ∈ gs, ∃ n, Shallower n c.2 := fun c hc => by
      have : sizeOf c.2 < sizeOf gs := by
        have h1 := List.sizeOf_lt_of_mem hc
        obtain ⟨a, b⟩ := c
        simp only [Prod.mk.sizeOf_spec] at h1 ⊢
        omega
      exact exists_shallower c.2
    have : ∃ n, ∀ c ∈ gs, Shallower n c.2 := by
      clear d
      induction gs with
      | nil => exact ⟨0, by simp⟩
      | cons c gs ihg =>
        obtain ⟨n, hn⟩ := ihg fun c hc => ih c (by simp [hc])
        obtain ⟨m, hm⟩ := ih c (by simp)
        refine ⟨n + m, ?_⟩
        intro e he
        simp only [List.mem_cons] at he
        rcases he with rfl | he
        · intro p h hp; have := hm p h hp; omega
        · intro p h hp; have := hn e he p h hp; omega
    obtain ⟨n, hn⟩ := this
    refine ⟨n + 1, ?_⟩
    intro p h hp
    cases hp with
    | here => simp
    | down _ _ k c q _ hc hq => have := hn _ hc q h hq; simp; omega
termination_by g => sizeOf g
decreasing_by simp; omega

/-- The group at a path, by lookups. -/
def find {α : Type} : G α → List String → Option (G α)
  | g, [] => some g
  | g, k :: ks => (lookup g.groups k).bind fun c => find c ks

theorem find_iff {α} (p : List String) : ∀ (g : G α), Distinct g → ∀ h, find g p = some h ↔ GroupAt g p h := by
  induction p with
  | nil =>
    intro g hd h
    simp only [find, Option.some.injEq]
    constructor
    · rintro rfl; exact .here _
    · intro h'; cases h'; rfl
  | cons k p ih =>
    intro g hg h
    obtain ⟨d, gs⟩ := g
    obtain ⟨h1, h2⟩ := distinct_mk hg
    simp only [find, G.groups, Option.bind_eq_some_iff]
    constructor
    · rintro ⟨c, hc, hf⟩
      have hc := (lookup_iff gs h1 k c).1 hc
      exact .down _ _ _ _ _ _ hc ((ih c (h2 _ hc) h).1 hf)
    · intro h'
      cases h' with | down _ _ _ c _ _ hc h'' =>
        exact ⟨c, (lookup_iff gs h1 k c).2 hc, (ih c (h2 _ hc) h).2 h''⟩

theorem lookup_assign {α} (gs : List (String × G α)) (k j : String) (c : G α) :
    lookup (assign gs k c) j = if j = k then some c else lookup gs j := by
  induction gs with
  | nil =>
    by_cases h : j = k
    · subst h; simp [assign, lookup]
    · have : (k == j) = false := by simpa using fun e => h e.symm
      simp [assign, lookup, h, this]
  | cons a gs ih =>
    obtain ⟨i, e⟩ := a
    simp only [assign]
    by_cases hi : i = k
    · subst hi
      rw [if_pos rfl]
      by_cases h : j = i
      · subst h; simp [lookup]
      · have : (i == j) = false := by simpa using fun e => h e.symm
        simp [lookup, h, this]
    · rw [if_neg hi]
      by_cases h : j = i
      · subst h; simp [lookup, hi]
      · have : (i == j) = false := by simpa using fun e => h e.symm
        simp only [lookup, List.find?_cons, this] at ih ⊢
        exact ih

theorem keys_assign {α} (gs : List (String × G α)) (k : String) (c : G α) :
    (assign gs k c).map Prod.fst = if k ∈ gs.map Prod.fst then gs.map Prod.fst else gs.map Prod.fst ++ [k] := by
  induction gs with
  | nil => simp [assign]
  | cons a gs ih =>
    simp only [assign]
    split
    · next h => subst h; simp
    · next h =>
      have h' : k ≠ a.1 := fun e => h e.symm
      simp only [List.map_cons, ih, List.mem_cons, h', false_or]
      split <;> simp

theorem mem_assign {α} (gs : List (String × G α)) (k : String) (c : G α) : ∀ e ∈ assign gs k c, e = (k, c) ∨ e ∈ gs := by
  induction gs with
  | nil => simp [assign]
  | cons a gs ih =>
    intro e he
    simp only [assign] at he
    split at he
    · simp only [List.mem_cons] at he ⊢
      rcases he with rfl | he
      · exact .inl rfl
      · exact .inr (.inr he)
    · simp only [List.mem_cons] at he ⊢
      rcases he with rfl | he
      · exact .inr (.inl rfl)
      · rcases ih e he with h | h
        · exact .inl h
        · exact .inr (.inr h)

theorem create_distinct {α} (empty : α) (last : G α) (hl : Distinct last) (p : List String) :
    ∀ (g : G α), Distinct g → Distinct (create empty last g p) := by
  induction p with
  | nil => intro g hd; exact hd
  | cons k p ih =>
    intro g hd
    obtain ⟨d, gs⟩ := g
    obtain ⟨h1, h2⟩ := distinct_mk hd
    refine .mk _ _ ?_ ?_
    · rw [keys_assign]
      split
      · exact h1
      · next h =>
        rw [List.nodup_append]
        refine ⟨h1, by simp, ?_⟩
        intro a ha b hb
        simp only [List.mem_singleton] at hb
        subst hb
        rintro rfl
        exact h ha
    · intro c hc
      rcases mem_assign _ _ _ c hc with rfl | hc
      · refine ih _ ?_
        cases hlk : lookup gs k with
        | some c => exact h2 (k, c) ((lookup_iff gs h1 k c).1 hlk)
        | none =>
          simp only [Option.getD_none]
          split
          · exact hl
          · exact .mk _ _ (by simp) (by simp)
      · exact h2 c hc

theorem assign_same {α} (gs : List (String × G α)) (k : String) (c : G α) (h : lookup gs k = some c) : assign gs k c = gs := by
  induction gs with
  | nil => simp [lookup] at h
  | cons a gs ih =>
    obtain ⟨j, e⟩ := a
    simp only [assign]
    split
    · next hj =>
      subst hj
      simp only [lookup, List.find?_cons, beq_self_eq_true, Option.map_some, Option.some.injEq] at h
      rw [h]
    · next hj =>
      have : (j == k) = false := by simpa using hj
      simp only [lookup, List.find?_cons, this] at h ih
      rw [ih h]

theorem create_existing {α} (empty : α) (last : G α) (p : List String) :
    ∀ (g : G α), (find g p).isSome → create empty last g p = g := by
  induction p with
  | nil => intro g _; rfl
  | cons k p ih =>
    intro g h
    obtain ⟨d, gs⟩ := g
    simp only [find, G.groups] at h
    cases hl : lookup gs k with
    | none => rw [hl] at h; simp at h
    | some c =>
      rw [hl] at h
      simp only [create, hl, Option.getD_some]
      rw [ih c h, assign_same _ _ _ hl]

theorem find_create {α} (empty : α) (last : G α) (p : List String) : ∀ (g : G α), find g p = none → ∀ q,
    (find (create empty last g p) q).map G.data
      = ((find g q).map G.data).or
        (if p <+: q then (find last (q.drop p.length)).map G.data
        else if q <+: p then some empty else none) := by
  induction p with
  | nil => intro g h; simp [find] at h
  | cons k p ih =>
    intro g h q
    obtain ⟨d, gs⟩ := g
    cases q with
    | nil => simp [find, create, G.data]
    | cons j q =>
      simp only [create, find, G.groups, lookup_assign]
      by_cases hj : j = k
      · subst hj
        rw [if_pos rfl]
        simp only [Option.bind_some]
        simp only [find, G.groups] at h
        cases hl : lookup gs j with
        | some c =>
          rw [hl] at h
          simp only [Option.getD_some, Option.bind_some]
          rw [ih c h q]
          simp
        | none =>
          simp only [Option.getD_none, Option.bind_none, Option.map_none, Option.none_or]
          cases p with
          | nil => simp [create]
          | cons i p =>
            have he : find (G.mk empty ([] : List (String × G α))) (i :: p) = none := by simp [find, lookup, G.groups]
            rw [if_neg (by simp), ih _ he]
            cases q with
            | nil => simp [find, G.data]
            | cons l q =>
              have he' : find (G.mk empty ([] : List (String × G α))) (l :: q) = none := by simp [find, lookup, G.groups]
              rw [he']
              simp
      · rw [if_neg hj]
        have h1 : ¬ (k :: p <+: j :: q) := by simp only [List.cons_prefix_cons]; exact fun h => hj h.1.symm
        have h2 : ¬ (j :: q <+: k :: p) := by simp only [List.cons_prefix_cons]; exact fun h => hj h.1
        rw [if_neg h1, if_neg h2]
        simp

theorem hasData_iff {α} (g : G α) (hd : Distinct g) (p : List String) (x : α) : HasData g p x ↔ (find g p).map G.data = some x := by
  simp only [HasData, Option.map_eq_some_iff]
  constructor
  · rintro ⟨h, hh, rfl⟩; exact ⟨h, (find_iff p g hd h).2 hh, rfl⟩
  · rintro ⟨h, hh, rfl⟩; exact ⟨h, (find_iff p g hd h).1 hh, rfl⟩

end Ocgis.Props
