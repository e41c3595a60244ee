import Verif.Proofs.ReindexGood
/-!
# C09, C10: re-indexing connectivity

`Spec.Refers start retained old new`: the indices `new`, counted from `start`, refer in `retained` to the nodes `old`.
`Spec.Retains`: the retained nodes are exactly the referenced ones, each once.
-/
namespace Ocgis.Props
open Ocgis.Spec Ocgis.Comm Ocgis.Reindex Ocgis.Mpi

/-- C09, one process: re-indexing succeeds for every array and start index; the retained nodes are sorted, are exactly
the nodes referenced before, each once, and every new index refers to the node the old one referred to. -/
theorem C09_serial (cindex : List Int) (start : Int) : ∃ new retained, reindexSerial cindex start = .ok (new, retained) ∧
    retained.Pairwise (· < ·) ∧ Retains 1 (fun _ => cindex) retained ∧ Refers start retained cindex new := by
  let pos := fun ii : Int => (npUnique cindex).idxOf ii
  have hpos : ∀ ii ∈ cindex, (npUnique cindex)[pos ii]? = some ii := by
    intro ii hii
    have h : ii ∈ npUnique cindex := (mem_npUnique _ _).2 hii
    have hlt := List.idxOf_lt_length_of_mem h
    rw [List.getElem?_eq_getElem hlt, List.getElem_idxOf hlt]
  have hm : cindex.mapM (remapValue (npUnique cindex) start) = .ok (cindex.map fun ii => start + (pos ii : Int)) := by
    apply mapM_ok
    intro ii hii
    have : ii ∈ npUnique cindex := (mem_npUnique _ _).2 hii
    have e : (npUnique cindex).idxOf? ii = some (pos ii) := by
      rw [List.idxOf?, List.findIdx?_eq_some_iff_findIdx_eq]
      exact ⟨List.idxOf_lt_length_of_mem this, rfl⟩
    simp only [remapValue, e]
  refine ⟨cindex.map fun ii => start + (pos ii : Int), npUnique cindex, ?_, sorted_npUnique _, ⟨?_, ?_⟩, by simp, ?_⟩
  · unfold reindexSerial
    simp only [hm]
    rfl
  · exact (sorted_npUnique _).imp (fun h => by omega)
  · intro v
    rw [mem_npUnique]
    exact ⟨fun h => ⟨0, by omega, h⟩, fun ⟨_, _, h⟩ => h⟩
  · intro i k v hk hv
    rw [List.getElem?_map, hv] at hk
    simp only [Option.map_some, Option.some.injEq] at hk
    subst hk
    refine ⟨by omega, ?_⟩
    rw [show (start + (pos v : Int) - start).toNat = pos v by omega]
    exact hpos v (List.mem_of_getElem? hv)

example : reindexSerial [7, 3, 7, 12] 1 = .ok ([2, 1, 2, 3], [3, 7, 12]) := by decide

/-- The state in which the exchange starts: `u` and `numbers` come from the two collective steps before it. -/
def exchange (n : Nat) (cindex u numbers : Nat → List Int) : Cfg := ⟨n, cindex, u, fun r => (numbers r).headD 0⟩

theorem prepared (n : Nat) (hn : 0 < n) (cindex : Nat → List Int) (hne : ∀ r, r < n → cindex r ≠ [])
    (hpos : ∀ r, r < n → ∀ v ∈ cindex r, 0 ≤ v) (start : Int) :
    ∃ u numbers, AlwaysReturns n (fun r => uniqueGlobal n r (cindex r)) u ∧
      AlwaysReturns n (fun r => arange n r (u r).length start) numbers ∧ Prepared (exchange n cindex u numbers) start := by
  obtain ⟨u, h1, h2⟩ := unique_returns n hn cindex hne
  refine ⟨u, _, h1, arange_returns n hn (fun r => (u r).length) start, hpos, fun r hr => (h2 r hr).1,
    fun r hr => (h2 r hr).2, ?_⟩
  intro r _ hu
  have : 0 < (u r).length := List.length_pos_iff.2 hu
  simp only [exchange]
  rw [intRange_cons (by omega)]
  rfl

/-- C09, any number of processes: on every schedule the preparatory collective steps succeed, and whatever the order of
steps of the exchange (with prompt or delayed message delivery), no process fails, and a process that is done holds
new indices which refer, in the concatenation of the ranks' retained nodes, to the nodes its old ones referred to;
retained nodes are exactly those referenced somewhere, each once.  Partial: no rank's array is empty (the unique
operation refuses that, `C08_empty_counterexample`), no index is negative, and that every process gets done is C10. -/
theorem C09_parallel_partial (n : Nat) (hn : 0 < n) (cindex : Nat → List Int) (hne : ∀ r, r < n → cindex r ≠ [])
    (hpos : ∀ r, r < n → ∀ v ∈ cindex r, 0 ≤ v) (start : Int) :
    ∃ u numbers, AlwaysReturns n (fun r => uniqueGlobal n r (cindex r)) u ∧
      AlwaysReturns n (fun r => arange n r (u r).length start) numbers ∧
      Retains n cindex ((List.range n).flatMap u) ∧
      ∀ instant S, Steps (exchange n cindex u numbers) instant (init (exchange n cindex u numbers)) S → ∀ r, r < n →
        S.phase r ≠ .failed ∧
        ∀ new, S.phase r = .done new → Refers start ((List.range n).flatMap u) (cindex r) new := by
  obtain ⟨u, numbers, h1, h2, hp⟩ := prepared n hn cindex hne hpos start
  refine ⟨u, numbers, h1, h2, retains hp, ?_⟩
  intro instant S hs r hr
  have inv := inv_steps (good_of_prepared hp) (inv_init _ _) hs
  have ok := inv.phase r hr
  refine ⟨?_, ?_⟩
  · intro e; rw [e] at ok; exact ok
  · intro new e
    rw [e] at ok
    rw [show new = _ from ok]
    exact new_refers hp r hr

example : ∀ r, r < 3 → ([[0, 4], [5, 0, 7], [4, 6, 0]] : List (List Int)).getD r [] ≠ [] ∧
    ∀ v ∈ ([[0, 4], [5, 0, 7], [4, 6, 0]] : List (List Int)).getD r [], 0 ≤ v := by decide

/-- C10, when a sent message can be received at once: from every state the exchange can get into, it can still complete
on every process, so no interleaving leads to a deadlock.  Missing: the same for delayed delivery, where it is false
(`C10_deadlock_counterexample`); and a bound on the number of fruitless polls, which needs a fairness assumption. -/
theorem C10_never_stuck_partial (n : Nat) (hn : 0 < n) (cindex : Nat → List Int) (hne : ∀ r, r < n → cindex r ≠ [])
    (hpos : ∀ r, r < n → ∀ v ∈ cindex r, 0 ≤ v) (start : Int) :
    ∃ u numbers, AlwaysReturns n (fun r => uniqueGlobal n r (cindex r)) u ∧
      AlwaysReturns n (fun r => arange n r (u r).length start) numbers ∧
      ∀ S, Steps (exchange n cindex u numbers) true (init (exchange n cindex u numbers)) S →
        ∃ T, Steps (exchange n cindex u numbers) true S T ∧ ∀ r, r < n → (T.phase r).isDone = true := by
  obtain ⟨u, numbers, h1, h2, hp⟩ := prepared n hn cindex hne hpos start
  refine ⟨u, numbers, h1, h2, ?_⟩
  intro S hs
  have hg := good_of_prepared hp
  exact can_finish hg _ S (live_steps hg (live_init _ _) hs) rfl

/-- Three processes, the last two of which both need node 0 of the first, and whose own nodes interleave. -/
def tangled : Cfg := exchange 3 (fun r => [[0], [0, 5, 7], [0, 4, 6]].getD r [])
  (fun r => [[0], [5, 7], [4, 6]].getD r []) (fun r => [[0], [1, 2], [3, 4]].getD r [])

/-- Processes 1 and 2 wait for each other's reply. -/
def Stuck (S : St) : Prop :=
  (∃ v todo f rest acc, S.phase 1 = .waiting v todo f rest acc ∧ 2 ∈ todo ∧ S.found 2 1 = []) ∧
  (∃ v todo f rest acc, S.phase 2 = .waiting v todo f rest acc ∧ 1 ∈ todo ∧ S.found 1 2 = [])

theorem stuck_step {c : Cfg} {i : Bool} {S T : St} (h : Stuck S) (s : Step c i S T) : Stuck T := by
  obtain ⟨⟨v1, t1, f1, r1, a1, p1, m1, e1⟩, ⟨v2, t2, f2, r2, a2, p2, m2, e2⟩⟩ := h
  have keep : ∀ (r : Nat) (p : Phase) (found : Nat → Nat → List (Option Int)) (search : Nat → Nat → List Int),
      r ≠ 1 → r ≠ 2 → found 2 1 = [] → found 1 2 = [] → Stuck ⟨upd S.phase r p, search, found⟩ := by
    intro r p found search h1 h2 g1 g2
    refine ⟨⟨v1, t1, f1, r1, a1, ?_, m1, g1⟩, ⟨v2, t2, f2, r2, a2, ?_, m2, g2⟩⟩
    · simpa [upd, h1.symm] using p1
    · simpa [upd, h2.symm] using p2
  have ne : ∀ (r : Nat) (p : Phase), S.phase r = p → (∀ v t f r a, p ≠ .waiting v t f r a) → r ≠ 1 ∧ r ≠ 2 := by
    intro r p hp hw
    constructor
    · rintro rfl; rw [p1] at hp; exact hw _ _ _ _ _ hp.symm
    · rintro rfl; rw [p2] at hp; exact hw _ _ _ _ _ hp.symm
  have other : ∀ (r d : Nat) (x : List (Option Int)), r ≠ 1 → r ≠ 2 →
      upd2 S.found r d x 2 1 = [] ∧ upd2 S.found r d x 1 2 = [] := by
    intro r d x h1 h2
    simp [upd2, h1.symm, h2.symm, e1, e2]
  cases s with
  | own r v rest acc k _ hp => exact keep _ _ _ _ (ne _ _ hp (by intros; simp)).1 (ne _ _ hp (by intros; simp)).2 e1 e2
  | bad r v rest acc _ hp => exact keep _ _ _ _ (ne _ _ hp (by intros; simp)).1 (ne _ _ hp (by intros; simp)).2 e1 e2
  | ask r v rest acc _ hp => exact keep _ _ _ _ (ne _ _ hp (by intros; simp)).1 (ne _ _ hp (by intros; simp)).2 e1 e2
  | send r v y todo rest acc _ hp => exact keep _ _ _ _ (ne _ _ hp (by intros; simp)).1 (ne _ _ hp (by intros; simp)).2 e1 e2
  | sent r v rest acc _ hp => exact keep _ _ _ _ (ne _ _ hp (by intros; simp)).1 (ne _ _ hp (by intros; simp)).2 e1 e2
  | answer r v d todo rest acc w ws _ hp =>
    obtain ⟨n1, n2⟩ := ne _ _ hp (by intros; simp)
    exact keep _ _ _ _ n1 n2 (other _ _ _ n1 n2).1 (other _ _ _ n1 n2).2
  | skip r v d todo rest acc _ hp => exact keep _ _ _ _ (ne _ _ hp (by intros; simp)).1 (ne _ _ hp (by intros; simp)).2 e1 e2
  | polled r v rest acc _ hp => exact keep _ _ _ _ (ne _ _ hp (by intros; simp)).1 (ne _ _ hp (by intros; simp)).2 e1 e2
  | reply r v y todo found rest acc m ms _ hp hf =>
    by_cases q1 : r = 1
    · subst q1
      have hy : y ≠ 2 := by rintro rfl; rw [e1] at hf; cases hf
      rw [p1] at hp
      cases hp
      refine ⟨⟨v1, todo, m.or f1, r1, a1, upd_self S.phase 1 _, ?_, ?_⟩, ⟨v2, t2, f2, r2, a2, ?_, m2, ?_⟩⟩
      · rcases List.mem_cons.1 m1 with h | h
        · exact absurd h.symm hy
        · exact h
      · simp [upd2, hy.symm, e1]
      · simpa [upd] using p2
      · simp [upd2, e2]
    · by_cases q2 : r = 2
      · subst q2
        have hy : y ≠ 1 := by rintro rfl; rw [e2] at hf; cases hf
        rw [p2] at hp
        cases hp
        refine ⟨⟨v1, t1, f1, r1, a1, ?_, m1, ?_⟩, ⟨v2, todo, m.or f2, r2, a2, upd_self S.phase 2 _, ?_, ?_⟩⟩
        · simpa [upd] using p1
        · simp [upd2, e1]
        · rcases List.mem_cons.1 m2 with h | h
          · exact absurd h.symm hy
          · exact h
        · simp [upd2, hy.symm, e2]
      · refine keep _ _ _ _ q1 q2 ?_ ?_
        · simp [upd2, e1, Ne.symm q1]
        · simp [upd2, e2, Ne.symm q2]
  | fill r v k rest acc _ hp =>
    refine keep _ _ _ _ ?_ ?_ e1 e2
    · rintro rfl; rw [p1] at hp; cases hp; simp at m1
    · rintro rfl; rw [p2] at hp; cases hp; simp at m2
  | lost r v rest acc _ hp =>
    refine keep _ _ _ _ ?_ ?_ e1 e2
    · rintro rfl; rw [p1] at hp; cases hp; simp at m1
    · rintro rfl; rw [p2] at hp; cases hp; simp at m2
  | finish r acc _ hp => exact keep _ _ _ _ (ne _ _ hp (by intros; simp)).1 (ne _ _ hp (by intros; simp)).2 e1 e2
  | again r acc _ hp => exact keep _ _ _ _ (ne _ _ hp (by intros; simp)).1 (ne _ _ hp (by intros; simp)).2 e1 e2
  | idleAnswer r d todo acc w ws _ hp =>
    obtain ⟨n1, n2⟩ := ne _ _ hp (by intros; simp)
    exact keep _ _ _ _ n1 n2 (other _ _ _ n1 n2).1 (other _ _ _ n1 n2).2
  | idleSkip r d todo acc _ hp => exact keep _ _ _ _ (ne _ _ hp (by intros; simp)).1 (ne _ _ hp (by intros; simp)).2 e1 e2
  | rootDone acc _ hp => exact keep _ _ _ _ (by decide) (by decide) e1 e2
  | childDone r acc _ _ hp => exact keep _ _ _ _ (ne _ _ hp (by intros; simp)).1 (ne _ _ hp (by intros; simp)).2 e1 e2

theorem stuck_steps {c : Cfg} {i : Bool} {S T : St} (s : Steps c i S T) (h : Stuck S) : Stuck T := by
  induction s with
  | refl => exact h
  | cons s _ ih => exact ih (stuck_step h s)

/-- The exchange up to the point where processes 1 and 2 have both polled while the other's message was in flight. -/
theorem tangled_sticks : ∃ S, Steps tangled false (init tangled) S ∧ Stuck S := by
  have o1 : tangled.overlaps 1 = [0, 2] := by decide
  have o2 : tangled.overlaps 2 = [0, 1] := by decide
  have d1 : tangled.destinations 1 = [2] := by decide
  have d2 : tangled.destinations 2 = [1] := by decide
  refine ⟨_, .cons (.ask _ 1 0 [5, 7] [] (by decide) rfl (by decide) (by decide))
    (.cons (.send _ 1 0 0 [2] [5, 7] [] (by decide) (by rw [o1]; rfl))
    (.cons (.send _ 1 0 2 [] [5, 7] [] (by decide) rfl)
    (.cons (.sent _ 1 0 [5, 7] [] (by decide) rfl)
    (.cons (.skip _ 1 0 2 [] [5, 7] [] (by decide) (by rw [d1]; rfl) (by intro h; cases h))
    (.cons (.ask _ 2 0 [4, 6] [] (by decide) rfl (by decide) (by decide))
    (.cons (.send _ 2 0 0 [1] [4, 6] [] (by decide) (by rw [o2]; rfl))
    (.cons (.send _ 2 0 1 [] [4, 6] [] (by decide) rfl)
    (.cons (.sent _ 2 0 [4, 6] [] (by decide) rfl)
    (.cons (.skip _ 2 0 1 [] [4, 6] [] (by decide) (by rw [d2]; rfl) (by intro h; cases h))
    (.cons (.polled _ 1 0 [5, 7] [] (by decide) rfl)
    (.cons (.polled _ 2 0 [4, 6] [] (by decide) rfl) (.refl _)))))))))))), ?_⟩
  exact ⟨⟨0, tangled.overlaps 1, none, [5, 7], [], rfl, by rw [o1]; decide, rfl⟩,
    ⟨0, tangled.overlaps 2, none, [4, 6], [], rfl, by rw [o2]; decide, rfl⟩⟩

/-- C10 is false of the code when message delivery may be delayed: three processes can get into a state from which they
never complete, because each polls for requests once, before the other's request has arrived, and then waits for its
own reply without polling again.  The starting data is what the preparatory steps give for these index arrays. -/
theorem C10_deadlock_counterexample :
    (∃ start, Prepared tangled start) ∧
    ∃ S, Steps tangled false (init tangled) S ∧
      ∀ T, Steps tangled false S T → ¬ (T.phase 1).isDone = true ∧ ¬ (T.phase 2).isDone = true := by
  refine ⟨⟨0, ?_, ?_, ?_, ?_⟩, ?_⟩
  · decide
  · decide
  · intro r hr x
    change r < 3 at hr
    match r, hr with
    | 0, _ => simp [tangled, exchange]
    | 1, _ =>
      simp only [tangled, exchange, List.getD_cons_succ, List.getD_cons_zero, List.mem_cons, List.not_mem_nil, or_false]
      constructor
      · intro h
        refine ⟨by omega, fun j hj => ?_⟩
        obtain rfl : j = 0 := by omega
        simp; omega
      · rintro ⟨h1, h2⟩
        have := h2 0 (by omega)
        simp at this; omega
    | 2, _ =>
      simp only [tangled, exchange, List.getD_cons_succ, List.getD_cons_zero, List.mem_cons, List.not_mem_nil, or_false]
      constructor
      · intro h
        refine ⟨by omega, fun j hj => ?_⟩
        match j, hj with
        | 0, _ => simp; omega
        | 1, _ => simp; omega
      · rintro ⟨h1, h2⟩
        have := h2 0 (by omega)
        simp at this; omega
  · decide
  · obtain ⟨S, h1, h2⟩ := tangled_sticks
    refine ⟨S, h1, ?_⟩
    intro T ht
    obtain ⟨⟨_, _, _, _, _, p1, _⟩, ⟨_, _, _, _, _, p2, _⟩⟩ := stuck_steps ht h2
    rw [p1, p2]
    exact ⟨by simp [Phase.isDone], by simp [Phase.isDone]⟩

end Ocgis.Props
