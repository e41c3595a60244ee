import Verif.Spec.Aggregate
import Verif.Props.Broadcast
import Verif.Proofs.ScatterGather
/-!
# Lemmas
-/
namespace Ocgis.Props
open Ocgis.Array Ocgis.Aggregate Ocgis.Spec

theorem applyWrites_get {β : Type _} (b : List Nat) (x : β) : ∀ (ws : List (List Nat × β)) (fill : List Nat → β),
    (∀ w ∈ ws, w.1 = b → w.2 = x) → ((∃ w ∈ ws, w.1 = b) ∨ fill b = x) → applyWrites fill ws b = x := by
  intro ws
  induction ws with
  | nil =>
    intro fill _ h
    rcases h with ⟨w, hw, _⟩ | h
    · cases hw
    · exact h
  | cons w ws ih =>
    intro fill hall h
    rw [applyWrites]
    apply ih _ (fun w' hw' => hall w' (List.mem_cons_of_mem _ hw'))
    by_cases hwb : w.1 = b
    · right
      rw [if_pos hwb.symm]
      exact hall w (by simp) hwb
    · rcases h with ⟨w', hw', he⟩ | h
      · rcases List.mem_cons.1 hw' with rfl | hw'
        · exact absurd he hwb
        · exact .inl ⟨w', hw', he⟩
      · right
        rw [if_neg (fun h => hwb h.symm)]
        exact h

theorem mergeIdx_map (extra : List (String × Nat)) (pos : String → Nat) : ∀ names : List String,
    (∀ n ∈ names, n ∉ standard → (extra.lookup n).getD 0 = pos n) →
    mergeIdx extra names ((names.filter standard.contains).map pos) = names.map pos := by
  intro names
  induction names with
  | nil => intro _; rfl
  | cons n ns ih =>
    intro h
    have ih' := ih (fun m hm => h m (List.mem_cons_of_mem _ hm))
    by_cases hn : n ∈ standard
    · have hc : standard.contains n = true := by simpa using hn
      rw [List.filter_cons_of_pos hc, mergeIdx, if_pos hc]
      simp only [List.map_cons, List.headD_cons, List.tail_cons]
      rw [ih']
    · have hc : ¬ standard.contains n = true := by simpa using hn
      rw [List.filter_cons_of_neg hc, mergeIdx, if_neg hc, ih', h n (by simp) hn]
      rfl

theorem zip_map_names (names : List String) (size : String → Nat) : names.zip (names.map size) = names.map fun n => (n, size n) := by
  induction names with
  | nil => rfl
  | cons n ns ih => simp [ih]

/-- Conforming by position. -/
theorem conform_spec (names : List String) (hn : names.Nodup) (size : String → Nat) (extra : List (String × Nat)) :
    ∃ c, conform names (names.map size) extra = .ok c ∧ c.shape = standard.map (fun n => if n ∈ names then size n else 1) ∧
    ∀ pos : String → Nat, (∀ n ∈ names, n ∉ standard → (extra.lookup n).getD 0 = pos n) →
      c.elem (standard.map pos) = names.map pos := by
  obtain ⟨c, h1, h2, h3⟩ := C16_broadcast_by_names (fixExtras names (names.map size) extra) (names.filter standard.contains) standard
    (List.Pairwise.filter _ hn) (by decide) size
    (by
      simp only [fixExtras, zip_map_names, List.filter_map, List.map_map]
      rfl)
    (by intro n hn hns; simp only [List.mem_filter, List.contains_iff_mem] at hn; exact absurd hn.2 hns)
  refine ⟨c, h1, ?_, ?_⟩
  · rw [h2]
    apply List.map_congr_left
    intro n hn
    simp only [List.mem_filter, List.contains_iff_mem, hn, and_true]
  · intro pos hpos
    rw [h3 pos (by intro n hn hns; simp only [List.mem_filter, List.contains_iff_mem] at hn; exact absurd hn.2 hns)]
    exact mergeIdx_map extra pos names hpos

theorem extraChoices_mem (l : List (String × Nat)) (hnd : (l.map (·.1)).Nodup) : ∀ c, c ∈ extraChoices l ↔
    c.map (·.1) = l.map (·.1) ∧ ∀ n s, (n, s) ∈ l → ∃ i, c.lookup n = some i ∧ i < s := by
  induction l with
  | nil =>
    intro c
    simp [extraChoices]
  | cons x l ih =>
    intro c
    obtain ⟨n, s⟩ := x
    simp only [List.map_cons, List.nodup_cons] at hnd
    simp only [extraChoices, List.mem_flatMap, List.mem_range, List.mem_map]
    constructor
    · rintro ⟨i, hi, c', hc', rfl⟩
      obtain ⟨h1, h2⟩ := (ih hnd.2 c').1 hc'
      refine ⟨by simp [h1], ?_⟩
      intro m s' hm
      rcases List.mem_cons.1 hm with he | hm
      · injection he with e1 e2
        subst e1 e2
        exact ⟨i, by simp [List.lookup], hi⟩
      · obtain ⟨j, hj, hjs⟩ := h2 m s' hm
        have hne : m ≠ n := by
          intro h
          exact hnd.1 (h ▸ List.mem_map_of_mem (f := Prod.fst) hm)
        refine ⟨j, ?_, hjs⟩
        have : (m == n) = false := by simpa using hne
        simp [List.lookup, this, hj]
    · rintro ⟨h1, h2⟩
      cases c with
      | nil => simp at h1
      | cons y c' =>
        obtain ⟨n', i⟩ := y
        simp only [List.map_cons, List.cons.injEq] at h1
        obtain ⟨e1, h1⟩ := h1
        subst e1
        obtain ⟨i', hi', hlt⟩ := h2 n' s (by simp)
        simp [List.lookup] at hi'
        subst hi'
        refine ⟨i, hlt, c', (ih hnd.2 c').2 ⟨h1, ?_⟩, rfl⟩
        intro m s' hm
        obtain ⟨j, hj, hjs⟩ := h2 m s' (List.mem_cons_of_mem _ hm)
        have hne : m ≠ n' := by
          intro h
          exact hnd.1 (h ▸ List.mem_map_of_mem (f := Prod.fst) hm)
        have : (m == n') = false := by simpa using hne
        simp [List.lookup, this] at hj
        exact ⟨j, hj, hjs⟩

theorem lookup_map_pos (names : List String) (pos : String → Nat) (n : String) (h : n ∈ names) :
    (names.map fun n => (n, pos n)).lookup n = some (pos n) := by
  induction names with
  | nil => cases h
  | cons m ns ih =>
    simp only [List.map_cons, List.lookup]
    by_cases hm : n = m
    · subst hm; simp
    · have : (n == m) = false := by simpa using hm
      rw [this]
      rcases List.mem_cons.1 h with h | h
      · exact absurd h hm
      · exact ih h

/-- The position given by a choice of the extra indices and standard indices. -/
def posOf (extra : List (String × Nat)) (ir t il y x : Nat) : String → Nat := fun n =>
  if n = "realization" then ir else if n = "time" then t else if n = "level" then il else if n = "y" then y else if n = "x" then x
  else (extra.lookup n).getD 0

theorem posOf_standard (extra : List (String × Nat)) (ir t il y x : Nat) : standard.map (posOf extra ir t il y x) = [ir, t, il, y, x] := by
  simp [standard, posOf]

theorem posOf_extra (extra : List (String × Nat)) (ir t il y x : Nat) (n : String) (h : n ∉ standard) :
    posOf extra ir t il y x n = (extra.lookup n).getD 0 := by
  simp only [standard, List.mem_cons, List.not_mem_nil, or_false, not_or] at h
  simp [posOf, h]

theorem at3_posOf (extra : List (String × Nat)) (ir t il y x t' y' x' : Nat) :
    at3 (posOf extra ir t il y x) t' y' x' = posOf extra ir t' il y' x' := by
  funext n
  simp only [at3, posOf]
  by_cases h1 : n = "time"
  · subst h1; simp
  by_cases h2 : n = "y"
  · subst h2; simp
  by_cases h3 : n = "x"
  · subst h3; simp
  simp [h1, h2, h3]

/-- The writes for one choice of the extra indices. -/
theorem choiceWrites_spec {α β : Type _} (f : List (Nat → Nat → Cell α) → Outcome β) (g : List (Nat → Nat → Cell α) → Nat → Nat → Cell β)
    (v : AVar α) (hn : v.names.Nodup) (htime : "time" ∈ v.names) (size : String → Nat)
    (hshape : v.arr.shape = v.names.map size) (groups : List (List Bool)) (hg : ∀ gr ∈ groups, gr.length = size "time")
    (hf : ∀ gr ∈ groups, ∀ pos, f (groupBlock v gr pos) = .block (g (groupBlock v gr pos))) (extra : List (String × Nat)) :
    ∃ ws, choiceWrites f v groups extra = .ok ws ∧ ∀ w, w ∈ ws ↔
      ∃ ir il it y x, ir < (if "realization" ∈ v.names then size "realization" else 1) ∧ il < (if "level" ∈ v.names then size "level" else 1) ∧
        it < groups.length ∧ y < (if "y" ∈ v.names then size "y" else 1) ∧ x < (if "x" ∈ v.names then size "x" else 1) ∧
        w = (v.names.map (posOf extra ir it il y x), g (groupBlock v (groups.getD it []) (posOf extra ir it il y x)) y x) := by
  obtain ⟨carr, hc1, hc2, hc3⟩ := conform_spec v.names hn size extra
  have hfs : fillShape v.names v.arr.shape groups.length = v.names.map fun n => if n = "time" then groups.length else size n := by
    rw [fillShape, hshape]
    apply List.ext_getElem
    · simp
    · intro i h1 h2
      have hi : i < v.names.length := by simpa using h2
      have hl := List.idxOf_lt_length_of_mem htime
      rw [List.getElem_set]
      simp only [List.getElem_map]
      by_cases he : v.names.idxOf "time" = i
      · subst he
        simp
      · have : v.names[i] ≠ "time" := by
          intro h
          apply he
          have h2 := List.getElem_idxOf hl
          exact (List.getElem_inj hn).1 (h2.trans h.symm)
        simp [he, this]
  obtain ⟨cfill, hf1, hf2, hf3⟩ := conform_spec v.names hn (fun n => if n = "time" then groups.length else size n) extra
  have hcs : carr.shape = [if "realization" ∈ v.names then size "realization" else 1, size "time", if "level" ∈ v.names then size "level" else 1,
      if "y" ∈ v.names then size "y" else 1, if "x" ∈ v.names then size "x" else 1] := by
    rw [hc2]; simp [standard, htime]
  have hfs3 : cfill.shape.getD 3 0 = if "y" ∈ v.names then size "y" else 1 := by rw [hf2]; simp [standard]
  have hfs4 : cfill.shape.getD 4 0 = if "x" ∈ v.names then size "x" else 1 := by rw [hf2]; simp [standard]
  have hce : ∀ ir t il y x, carr.elem [ir, t, il, y, x] = v.names.map (posOf extra ir t il y x) := by
    intro ir t il y x
    rw [← posOf_standard extra ir t il y x]
    exact hc3 _ (fun n _ h => (posOf_extra extra ir t il y x n h).symm)
  have hfe : ∀ ir t il y x, cfill.elem [ir, t, il, y, x] = v.names.map (posOf extra ir t il y x) := by
    intro ir t il y x
    rw [← posOf_standard extra ir t il y x]
    exact hf3 _ (fun n _ h => (posOf_extra extra ir t il y x n h).symm)
  have hgw : ∀ ir il it, it < groups.length → groupWrites f v.arr.elem carr cfill groups ir il it =
      .ok ((List.range (if "y" ∈ v.names then size "y" else 1)).flatMap fun y =>
        (List.range (if "x" ∈ v.names then size "x" else 1)).map fun x =>
          (v.names.map (posOf extra ir it il y x), g (groupBlock v (groups.getD it []) (posOf extra ir it il y x)) y x)) := by
    intro ir il it hit
    have hmem : groups.getD it [] ∈ groups := by
      rw [List.getD_eq_getElem?_getD, List.getElem?_eq_getElem hit]
      exact List.getElem_mem _
    have hblock : ∀ y0 x0, ((members (groups.getD it [])).map fun t y x => v.arr.elem (carr.elem [ir, t, il, y, x])) =
        groupBlock v (groups.getD it []) (posOf extra ir it il y0 x0) := by
      intro y0 x0
      simp only [groupBlock, members]
      apply List.map_congr_left
      intro t _
      funext y x
      rw [hce, at3_posOf]
    unfold groupWrites
    have hlen : (groups.getD it []).length = carr.shape.getD 1 0 := by rw [hg _ hmem, hcs]; rfl
    simp only [hlen, if_true]
    rw [hblock 0 0, hf _ hmem]
    simp only [hfs3, hfs4]
    congr 1
    congr 1
    funext y
    congr 1
    funext x
    rw [hfe, ← hblock 0 0, ← hblock y x]
  refine ⟨(((List.range (carr.shape.getD 0 0)).flatMap fun ir => (List.range (carr.shape.getD 2 0)).flatMap fun il =>
    (List.range groups.length).map fun it => (ir, il, it)).map (fun p => ((List.range (if "y" ∈ v.names then size "y" else 1)).flatMap fun y =>
        (List.range (if "x" ∈ v.names then size "x" else 1)).map fun x =>
          (v.names.map (posOf extra p.1 p.2.2 p.2.1 y x), g (groupBlock v (groups.getD p.2.2 []) (posOf extra p.1 p.2.2 p.2.1 y x)) y x)))).flatten,
    ?_, ?_⟩
  · unfold choiceWrites
    rw [hfs, hshape, hc1, hf1]
    simp only [bind, Except.bind]
    unfold conformedWrites
    rw [Ocgis.Mpi.mapM_ok _ _ (fun p => ((List.range (if "y" ∈ v.names then size "y" else 1)).flatMap fun y =>
        (List.range (if "x" ∈ v.names then size "x" else 1)).map fun x =>
          (v.names.map (posOf extra p.1 p.2.2 p.2.1 y x), g (groupBlock v (groups.getD p.2.2 []) (posOf extra p.1 p.2.2 p.2.1 y x)) y x)))]
    · rfl
    · rintro ⟨ir, il, it⟩ hp
      simp only [List.mem_flatMap, List.mem_map, List.mem_range, Prod.mk.injEq] at hp
      obtain ⟨ir', _, il', _, it', hit, rfl, rfl, rfl⟩ := hp
      exact hgw _ _ _ hit
  · intro w
    rw [hcs]
    simp only [List.mem_flatten, List.mem_map, List.mem_flatMap, List.mem_range, List.getD_cons_zero, List.getD_cons_succ]
    constructor
    · rintro ⟨l, ⟨p, ⟨ir, hir, il, hil, it, hit, rfl⟩, rfl⟩, hw⟩
      simp only [List.mem_flatMap, List.mem_range, List.mem_map] at hw
      obtain ⟨y, hy, x, hx, rfl⟩ := hw
      exact ⟨ir, il, it, y, x, hir, hil, hit, hy, hx, rfl⟩
    · rintro ⟨ir, il, it, y, x, hir, hil, hit, hy, hx, rfl⟩
      refine ⟨_, ⟨(ir, il, it), ⟨ir, hir, il, hil, it, hit, rfl⟩, rfl⟩, ?_⟩
      simp only [List.mem_flatMap, List.mem_range, List.mem_map]
      exact ⟨y, hy, x, hx, rfl⟩

theorem groupBlock_column {α : Type _} (v : AVar α) (gr : List Bool) (pos : String → Nat) :
    (groupBlock v gr pos).map (fun b => b (pos "y") (pos "x")) = groupColumn v gr pos := by
  simp only [groupBlock, groupColumn, List.map_map]
  apply List.map_congr_left
  intro t _
  simp only [Function.comp]
  congr 1
  apply List.map_congr_left
  intro n _
  simp only [at3]
  by_cases h1 : n = "time"
  · simp [h1]
  by_cases h2 : n = "y"
  · subst h2; simp
  by_cases h3 : n = "x"
  · subst h3; simp
  simp [h1, h2, h3]

end Ocgis.Props
