import Verif.Model.Reindex
import Verif.Proofs.Unique
namespace Ocgis.Reindex

/-- What the exchange assumes of the data: every value has exactly one owner, which overlaps every rank that needs it. -/
structure Good (c : Cfg) (owner : Int → Nat) : Prop where
  nonneg : ∀ r, r < c.n → ∀ v ∈ c.cindex r, 0 ≤ v
  owned : ∀ r, r < c.n → ∀ v ∈ c.cindex r, ∃ k, c.lookup (owner v) v = some k
  only : ∀ r s, r < c.n → s < c.n → ∀ v ∈ c.cindex r, s ≠ owner v → c.lookup s v = none
  near : ∀ r, r < c.n → ∀ v ∈ c.cindex r, owner v ≠ r → owner v ∈ c.overlaps r

/-- The new index of a value. -/
def Cfg.new (c : Cfg) (owner : Int → Nat) (v : Int) : Int := (c.lookup (owner v) v).getD 0

theorem overlaps_nodup (c : Cfg) (r : Nat) : (c.overlaps r).Nodup := List.Pairwise.filter _ List.nodup_range

theorem overlaps_lt {c : Cfg} {r y : Nat} (h : y ∈ c.overlaps r) : y < c.n := by
  simp [Cfg.overlaps] at h; exact h.1

theorem mem_destinations {c : Cfg} {r d : Nat} : d ∈ c.destinations r ↔ d < c.n ∧ r ∈ c.overlaps d := by
  simp [Cfg.destinations]

/-- What is known of a rank in a phase. -/
def PhaseOk (c : Cfg) (owner : Int → Nat) (r : Nat) : Phase → Prop
  | .work rest acc => ∃ pre, c.cindex r = pre ++ rest ∧ acc = pre.map (c.new owner)
  | .sending v todo rest acc => (∃ pre, c.cindex r = pre ++ v :: rest ∧ acc = pre.map (c.new owner)) ∧
      c.lookup r v = none ∧ todo <:+ c.overlaps r
  | .polling v _ rest acc => (∃ pre, c.cindex r = pre ++ v :: rest ∧ acc = pre.map (c.new owner)) ∧ c.lookup r v = none
  | .waiting v todo found rest acc => (∃ pre, c.cindex r = pre ++ v :: rest ∧ acc = pre.map (c.new owner)) ∧
      c.lookup r v = none ∧ todo <:+ c.overlaps r ∧ found = if owner v ∈ todo then none else some (c.new owner v)
  | .idle _ acc => acc = (c.cindex r).map (c.new owner)
  | .done acc => acc = (c.cindex r).map (c.new owner)
  | .failed => False

/-- The value rank `x` is waiting to hear about from rank `y`, if any. -/
def outstanding (ov : List Nat) (p : Phase) (y : Nat) : Option Int :=
  match p with
  | .sending v todo _ _ => if y ∈ ov ∧ y ∉ todo then some v else none
  | .polling v _ _ _ => if y ∈ ov then some v else none
  | .waiting v todo _ _ _ => if y ∈ todo then some v else none
  | _ => none

/-- The messages between `x` asking and `y` answering. -/
def PairOk (c : Cfg) (S : St) (x y : Nat) : Prop :=
  match outstanding (c.overlaps x) (S.phase x) y with
  | none => S.search x y = [] ∧ S.found y x = []
  | some v => (S.search x y = [v] ∧ S.found y x = []) ∨ (S.search x y = [] ∧ S.found y x = [c.lookup y v])

structure Inv (c : Cfg) (owner : Int → Nat) (S : St) : Prop where
  phase : ∀ r, r < c.n → PhaseOk c owner r (S.phase r)
  pair : ∀ x y, PairOk c S x y
  finish : ∀ r, r < c.n → (S.phase r).isDone = true → ∀ s, s < c.n → (S.phase s).finished = true

theorem upd_self {α : Type _} (f : Nat → α) (r : Nat) (x : α) : upd f r x r = x := by simp [upd]
theorem upd_ne {α : Type _} (f : Nat → α) {r s : Nat} (x : α) (h : s ≠ r) : upd f r x s = f s := by simp [upd, h]

theorem inv_init (c : Cfg) (owner : Int → Nat) : Inv c owner (init c) := by
  refine ⟨?_, ?_, ?_⟩
  · intro r _; exact ⟨[], rfl, rfl⟩
  · intro x y; exact ⟨rfl, rfl⟩
  · intro r _ h; cases h

/-- Phases: one rank moves. -/
theorem phaseOk_upd {c : Cfg} {owner : Int → Nat} {S : St} (h : Inv c owner S) (r : Nat) (p : Phase)
    (hp : PhaseOk c owner r p) : ∀ s, s < c.n → PhaseOk c owner s (upd S.phase r p s) := by
  intro s hs
  by_cases e : s = r
  · subst e; rw [upd_self]; exact hp
  · rw [upd_ne _ _ e]; exact h.phase s hs

/-- A step that only changes a phase, without changing what is outstanding. -/
theorem pair_same {c : Cfg} {S : St} (h : ∀ x y, PairOk c S x y) (r : Nat) (p : Phase)
    (ho : ∀ y, outstanding (c.overlaps r) p y = outstanding (c.overlaps r) (S.phase r) y) :
    ∀ x y, PairOk c { S with phase := upd S.phase r p } x y := by
  intro x y
  have := h x y
  unfold PairOk at this ⊢
  simp only
  by_cases e : x = r
  · subst e; rw [upd_self, ho]; exact this
  · rw [upd_ne _ _ e]; exact this

theorem finish_upd {c : Cfg} {owner : Int → Nat} {S : St} (h : Inv c owner S) (r : Nat) (hr : r < c.n) (p : Phase)
    (hd : p.isDone = true → ∀ s, s < c.n → (S.phase s).finished = true)
    (hf : (S.phase r).finished = true → p.finished = true) :
    ∀ t, t < c.n → (upd S.phase r p t).isDone = true → ∀ s, s < c.n → (upd S.phase r p s).finished = true := by
  intro t ht htd s hs
  have all : ∀ s, s < c.n → (S.phase s).finished = true := by
    by_cases e : t = r
    · subst e; rw [upd_self] at htd; exact hd htd
    · rw [upd_ne _ _ e] at htd; exact h.finish t ht htd
  by_cases e : s = r
  · subst e; rw [upd_self]; exact hf (all s hs)
  · rw [upd_ne _ _ e]; exact all s hs

theorem suffix_tail {α : Type _} {y : α} {t l : List α} (h : y :: t <:+ l) : t <:+ l :=
  (List.suffix_cons y t).trans h

theorem nodup_of_suffix {α : Type _} {t l : List α} (h : t <:+ l) (hn : l.Nodup) : t.Nodup :=
  hn.sublist h.sublist

/-- A rank answers a search message. -/
theorem pair_answer {c : Cfg} {S : St} (h : ∀ x y, PairOk c S x y) (r d : Nat) (p : Phase) (w : Int) (ws : List Int)
    (ho : ∀ y, outstanding (c.overlaps r) p y = outstanding (c.overlaps r) (S.phase r) y) (hw : S.search d r = w :: ws) :
    ∀ x y, PairOk c { phase := upd S.phase r p, search := upd2 S.search d r ws,
                      found := upd2 S.found r d (S.found r d ++ [c.lookup r w]) } x y := by
  intro x y
  have hxy := h x y
  have hout : outstanding (c.overlaps x) (upd S.phase r p x) y = outstanding (c.overlaps x) (S.phase x) y := by
    by_cases e : x = r
    · subst e; rw [upd_self, ho]
    · rw [upd_ne _ _ e]
  unfold PairOk at hxy ⊢
  simp only [hout]
  by_cases e : x = d ∧ y = r
  · obtain ⟨rfl, rfl⟩ := e
    simp only [upd2, and_self, if_true]
    split at hxy
    · rw [hw] at hxy; cases hxy.1
    · next v hv =>
      right
      rcases hxy with ⟨h1, h2⟩ | ⟨h1, h2⟩
      · rw [hw] at h1; injection h1 with a b; subst a; subst b
        exact ⟨rfl, by rw [h2]; rfl⟩
      · rw [hw] at h1; cases h1
  · have e1 : upd2 S.search d r ws x y = S.search x y := by simp only [upd2]; rw [if_neg e]
    have e2 : upd2 S.found r d (S.found r d ++ [c.lookup r w]) y x = S.found y x := by
      simp only [upd2]; rw [if_neg (fun h => e ⟨h.2, h.1⟩)]
    rw [e1, e2]; exact hxy

theorem inv_step {c : Cfg} {owner : Int → Nat} (hg : Good c owner) {inst : Bool} {S T : St} (h : Inv c owner S)
    (hs : Step c inst S T) : Inv c owner T := by
  have hlook : ∀ r, r < c.n → ∀ v ∈ c.cindex r, ∀ k, c.lookup r v = some k → k = c.new owner v := by
    intro r hr v hv k hk
    by_cases e : r = owner v
    · unfold Cfg.new; rw [← e, hk]; rfl
    · rw [hg.only r r hr hr v hv e] at hk; cases hk
  have hself : ∀ r, r < c.n → ∀ v ∈ c.cindex r, c.lookup r v = none → owner v ∈ c.overlaps r := by
    intro r hr v hv hn
    apply hg.near r hr v hv
    intro e
    obtain ⟨k, hk⟩ := hg.owned r hr v hv
    rw [e, hn] at hk; cases hk
  cases hs with
  | own r v rest acc k hr hp hk =>
    have ok := h.phase r hr
    rw [hp] at ok
    obtain ⟨pre, e1, e2⟩ := ok
    refine ⟨phaseOk_upd h r _ ⟨pre ++ [v], by simp [e1], ?_⟩, pair_same h.pair r _ ?_, finish_upd h r hr _ ?_ ?_⟩
    · rw [hlook r hr v (by rw [e1]; simp) k hk, e2]; simp
    · intro y; rw [hp]; rfl
    · intro hd; cases hd
    · rw [hp]; intro hd; cases hd
  | bad r v rest acc hr hp hk hv =>
    have ok := h.phase r hr
    rw [hp] at ok
    obtain ⟨pre, e1, e2⟩ := ok
    have := hg.nonneg r hr v (by rw [e1]; simp)
    omega
  | ask r v rest acc hr hp hk hv =>
    have ok := h.phase r hr
    rw [hp] at ok
    obtain ⟨pre, e1, e2⟩ := ok
    refine ⟨phaseOk_upd h r _ ⟨⟨pre, e1, e2⟩, hk, List.suffix_refl _⟩, pair_same h.pair r _ ?_, finish_upd h r hr _ ?_ ?_⟩
    · intro y
      rw [hp]
      simp only [outstanding]
      rw [if_neg (fun h => h.2 h.1)]
    · intro hd; cases hd
    · rw [hp]; intro hd; cases hd
  | send r v y todo rest acc hr hp =>
    have ok := h.phase r hr
    rw [hp] at ok
    obtain ⟨e1, e2, e3⟩ := ok
    have hy : y ∈ c.overlaps r := e3.subset (by simp)
    have hnd := nodup_of_suffix e3 (overlaps_nodup c r)
    refine ⟨phaseOk_upd h r _ ⟨e1, e2, suffix_tail e3⟩, ?_, finish_upd h r hr _ ?_ ?_⟩
    · intro x z
      have hxz := h.pair x z
      unfold PairOk at hxz ⊢
      simp only
      by_cases ex : x = r
      · subst ex
        rw [upd_self]
        rw [hp] at hxz
        simp only [outstanding] at hxz ⊢
        by_cases ez : z = y
        · subst ez
          rw [if_neg (fun h => h.2 (by simp))] at hxz
          rw [if_pos ⟨hy, (List.nodup_cons.1 hnd).1⟩]
          simp only [upd2, and_self, if_true]
          left
          simp only at hxz
          exact ⟨by rw [hxz.1]; rfl, hxz.2⟩
        · have e : (z ∈ c.overlaps x ∧ z ∉ y :: todo) ↔ (z ∈ c.overlaps x ∧ z ∉ todo) := by simp [ez]
          simp only [e] at hxz
          simp only [upd2, ez, and_false, if_false]
          exact hxz
      · rw [upd_ne _ _ ex]
        simp only [upd2, ex, false_and, if_false]
        exact hxz
    · intro hd; cases hd
    · rw [hp]; intro hd; cases hd
  | sent r v rest acc hr hp =>
    have ok := h.phase r hr
    rw [hp] at ok
    obtain ⟨e1, e2, e3⟩ := ok
    refine ⟨phaseOk_upd h r _ ⟨e1, e2⟩, pair_same h.pair r _ ?_, finish_upd h r hr _ ?_ ?_⟩
    · intro y; rw [hp]; simp [outstanding]
    · intro hd; cases hd
    · rw [hp]; intro hd; cases hd
  | answer r v d todo rest acc w ws hr hp hw =>
    have ok := h.phase r hr
    rw [hp] at ok
    refine ⟨phaseOk_upd h r _ ok, pair_answer h.pair r d _ w ws ?_ hw, finish_upd h r hr _ ?_ ?_⟩
    · intro y; rw [hp]; rfl
    · intro hd; cases hd
    · rw [hp]; intro hd; cases hd
  | skip r v d todo rest acc hr hp hw =>
    have ok := h.phase r hr
    rw [hp] at ok
    refine ⟨phaseOk_upd h r _ ok, pair_same h.pair r _ ?_, finish_upd h r hr _ ?_ ?_⟩
    · intro y; rw [hp]; rfl
    · intro hd; cases hd
    · rw [hp]; intro hd; cases hd
  | polled r v rest acc hr hp =>
    have ok := h.phase r hr
    rw [hp] at ok
    obtain ⟨⟨pre, e1, e2⟩, e3⟩ := ok
    refine ⟨phaseOk_upd h r _ ⟨⟨pre, e1, e2⟩, e3, List.suffix_refl _, ?_⟩, pair_same h.pair r _ ?_, finish_upd h r hr _ ?_ ?_⟩
    · rw [if_pos (hself r hr v (by rw [e1]; simp) e3)]
    · intro y; rw [hp]; simp [outstanding]
    · intro hd; cases hd
    · rw [hp]; intro hd; cases hd
  | reply r v y todo found rest acc m ms hr hp hm =>
    have ok := h.phase r hr
    rw [hp] at ok
    obtain ⟨⟨pre, e1, e2⟩, e3, e4, e5⟩ := ok
    have hnd := List.nodup_cons.1 (nodup_of_suffix e4 (overlaps_nodup c r))
    have hv : v ∈ c.cindex r := by rw [e1]; simp
    have hpr := h.pair r y
    unfold PairOk at hpr
    rw [hp] at hpr
    simp only [outstanding, List.mem_cons, true_or, if_true] at hpr
    have hmm : m = c.lookup y v ∧ ms = [] ∧ S.search r y = [] := by
      rcases hpr with ⟨_, h2⟩ | ⟨h1, h2⟩
      · rw [hm] at h2; cases h2
      · rw [hm] at h2; injection h2 with a b; exact ⟨a, b, h1⟩
    obtain ⟨rfl, rfl, hsearch⟩ := hmm
    refine ⟨phaseOk_upd h r _ ⟨⟨pre, e1, e2⟩, e3, suffix_tail e4, ?_⟩, ?_, finish_upd h r hr _ ?_ ?_⟩
    · rw [e5]
      by_cases ho : owner v = y
      · obtain ⟨k, hk⟩ := hg.owned r hr v hv
        have : c.lookup y v = some (c.new owner v) := by
          unfold Cfg.new; rw [ho] at hk ⊢; rw [hk]; rfl
        rw [this, if_neg (c := owner v ∈ todo) (by rw [ho]; exact hnd.1)]; rfl
      · have hyn : c.lookup y v = none :=
          hg.only r y hr (overlaps_lt (e4.subset (by simp))) v hv (Ne.symm ho)
        rw [hyn]
        simp [ho]
    · intro x z
      have hxz := h.pair x z
      unfold PairOk at hxz ⊢
      simp only
      by_cases ex : x = r
      · subst ex
        rw [upd_self]
        rw [hp] at hxz
        simp only [outstanding] at hxz ⊢
        by_cases ez : z = y
        · subst ez
          rw [if_neg hnd.1]
          simp only [upd2, and_self, if_true]
          exact ⟨hsearch, trivial⟩
        · have e : (z ∈ y :: todo) ↔ (z ∈ todo) := by simp [ez]
          simp only [e] at hxz
          simp only [upd2, ez, false_and, if_false]
          exact hxz
      · rw [upd_ne _ _ ex]
        simp only [upd2, ex, and_false, if_false]
        exact hxz
    · intro hd; cases hd
    · rw [hp]; intro hd; cases hd
  | fill r v k rest acc hr hp =>
    have ok := h.phase r hr
    rw [hp] at ok
    obtain ⟨⟨pre, e1, e2⟩, e3, e4, e5⟩ := ok
    simp only [List.not_mem_nil, if_false, Option.some.injEq] at e5
    refine ⟨phaseOk_upd h r _ ⟨pre ++ [v], by simp [e1], by rw [e5, e2]; simp⟩, pair_same h.pair r _ ?_, finish_upd h r hr _ ?_ ?_⟩
    · intro y; rw [hp]; simp [outstanding]
    · intro hd; cases hd
    · rw [hp]; intro hd; cases hd
  | lost r v rest acc hr hp =>
    have ok := h.phase r hr
    rw [hp] at ok
    obtain ⟨_, _, _, e5⟩ := ok
    simp at e5
  | finish r acc hr hp =>
    have ok := h.phase r hr
    rw [hp] at ok
    obtain ⟨pre, e1, e2⟩ := ok
    refine ⟨phaseOk_upd h r _ ?_, pair_same h.pair r _ ?_, finish_upd h r hr _ ?_ ?_⟩
    · simp only [PhaseOk]; rw [e2, e1]; simp
    · intro y; rw [hp]; rfl
    · intro hd; cases hd
    · intro _; rfl
  | again r acc hr hp =>
    have ok := h.phase r hr
    rw [hp] at ok
    refine ⟨phaseOk_upd h r _ ok, pair_same h.pair r _ ?_, finish_upd h r hr _ ?_ ?_⟩
    · intro y; rw [hp]; rfl
    · intro hd; cases hd
    · intro _; rfl
  | idleAnswer r d todo acc w ws hr hp hw =>
    have ok := h.phase r hr
    rw [hp] at ok
    refine ⟨phaseOk_upd h r _ ok, pair_answer h.pair r d _ w ws ?_ hw, finish_upd h r hr _ ?_ ?_⟩
    · intro y; rw [hp]; rfl
    · intro hd; cases hd
    · intro _; rfl
  | idleSkip r d todo acc hr hp hw =>
    have ok := h.phase r hr
    rw [hp] at ok
    refine ⟨phaseOk_upd h r _ ok, pair_same h.pair r _ ?_, finish_upd h r hr _ ?_ ?_⟩
    · intro y; rw [hp]; rfl
    · intro hd; cases hd
    · intro _; rfl
  | rootDone acc hr hp hall =>
    have ok := h.phase 0 hr
    rw [hp] at ok
    refine ⟨phaseOk_upd h 0 _ ok, pair_same h.pair 0 _ ?_, finish_upd h 0 hr _ (fun _ => hall) ?_⟩
    · intro y; rw [hp]; rfl
    · intro _; rfl
  | childDone r acc hr hne hp h0 =>
    have ok := h.phase r hr
    rw [hp] at ok
    refine ⟨phaseOk_upd h r _ ok, pair_same h.pair r _ ?_, finish_upd h r hr _ (fun _ => h.finish 0 (by omega) h0) ?_⟩
    · intro y; rw [hp]; rfl
    · intro _; rfl

theorem inv_steps {c : Cfg} {owner : Int → Nat} (hg : Good c owner) {inst : Bool} {S T : St} (h : Inv c owner S)
    (hs : Steps c inst S T) : Inv c owner T := by
  induction hs with
  | refl => exact h
  | cons s _ ih => exact ih (inv_step hg h s)

/-- `x` has asked `y`, has got no answer, and `y` will not look before it has itself been answered. -/
def Blocked (S : St) (x y : Nat) : Prop :=
  S.search x y ≠ [] ∧
  (match S.phase x with
    | .polling _ _ _ _ => True
    | .waiting _ _ _ _ _ => True
    | _ => False) ∧
  (match S.phase y with
    | .polling _ todo _ _ => x ∉ todo
    | .waiting _ _ _ _ _ => True
    | _ => False)

/-- The blocking relation has no cycle. -/
def Ranked (S : St) : Prop := ∃ t : Nat → Nat, ∀ x y, Blocked S x y → t y < t x

theorem ranked_init (c : Cfg) : Ranked (init c) := ⟨fun _ => 0, fun _ _ h => absurd rfl h.1⟩

theorem ranked_mono {S T : St} (h : Ranked S) (hm : ∀ x y, Blocked T x y → Blocked S x y) : Ranked T := by
  obtain ⟨t, ht⟩ := h
  exact ⟨t, fun x y hb => ht x y (hm x y hb)⟩

/-- A bound on a function over the ranks below `n`. -/
theorem exists_bound (t : Nat → Nat) (n : Nat) : ∃ b, ∀ y, y < n → t y < b := by
  induction n with
  | zero => exact ⟨0, fun y h => by omega⟩
  | succ n ih =>
    obtain ⟨b, hb⟩ := ih
    refine ⟨max b (t n + 1), fun y hy => ?_⟩
    by_cases e : y = n
    · subst e; omega
    · have := hb y (by omega); omega

theorem search_of_pair {c : Cfg} {S : St} (h : ∀ x y, PairOk c S x y) {x y : Nat} (hs : S.search x y ≠ []) :
    ∃ v, outstanding (c.overlaps x) (S.phase x) y = some v ∧ S.search x y = [v] ∧ S.found y x = [] := by
  have := h x y
  unfold PairOk at this
  split at this
  · exact absurd this.1 hs
  · next v hv =>
    rcases this with h | h
    · exact ⟨v, hv, h⟩
    · exact absurd h.1 hs

theorem outstanding_mem {c : Cfg} {owner : Int → Nat} {S : St} (h : Inv c owner S) {x y : Nat} (hx : x < c.n) {v : Int}
    (ho : outstanding (c.overlaps x) (S.phase x) y = some v) : y ∈ c.overlaps x := by
  have ok := h.phase x hx
  unfold outstanding at ho
  split at ho
  · split at ho
    · next hh => exact hh.1
    · cases ho
  · split at ho
    · next hh => exact hh
    · cases ho
  · next todo _ _ _ hp =>
    split at ho
    · next hh => rw [hp] at ok; exact ok.2.2.1.subset hh
    · cases ho
  · cases ho

theorem ranked_step {c : Cfg} {owner : Int → Nat} {S T : St} (h : Inv c owner S)
    (hge : ∀ x, c.n ≤ x → ∃ rest acc, S.phase x = .work rest acc)
    (hr : Ranked S) (hs : Step c true S T) : Ranked T := by
  cases hs with
  | own r v rest acc k hr' hp hk =>
    apply ranked_mono hr
    rintro x y ⟨h1, h2, h3⟩
    simp only at h1 h2 h3
    have ex : x ≠ r := by rintro rfl; rw [upd_self] at h2; exact h2
    have ey : y ≠ r := by rintro rfl; rw [upd_self] at h3; exact h3
    rw [upd_ne _ _ ex] at h2
    rw [upd_ne _ _ ey] at h3
    exact ⟨h1, h2, h3⟩
  | bad r v rest acc hr' hp hk hv =>
    apply ranked_mono hr
    rintro x y ⟨h1, h2, h3⟩
    simp only at h1 h2 h3
    have ex : x ≠ r := by rintro rfl; rw [upd_self] at h2; exact h2
    have ey : y ≠ r := by rintro rfl; rw [upd_self] at h3; exact h3
    rw [upd_ne _ _ ex] at h2
    rw [upd_ne _ _ ey] at h3
    exact ⟨h1, h2, h3⟩
  | ask r v rest acc hr' hp hk hv =>
    apply ranked_mono hr
    rintro x y ⟨h1, h2, h3⟩
    simp only at h1 h2 h3
    have ex : x ≠ r := by rintro rfl; rw [upd_self] at h2; exact h2
    have ey : y ≠ r := by rintro rfl; rw [upd_self] at h3; exact h3
    rw [upd_ne _ _ ex] at h2
    rw [upd_ne _ _ ey] at h3
    exact ⟨h1, h2, h3⟩
  | send r v z todo rest acc hr' hp =>
    apply ranked_mono hr
    rintro x y ⟨h1, h2, h3⟩
    simp only at h1 h2 h3
    have ex : x ≠ r := by rintro rfl; rw [upd_self] at h2; exact h2
    have ey : y ≠ r := by rintro rfl; rw [upd_self] at h3; exact h3
    rw [upd_ne _ _ ex] at h2
    rw [upd_ne _ _ ey] at h3
    simp only [upd2, ex, false_and, if_false] at h1
    exact ⟨h1, h2, h3⟩
  | sent r v rest acc hr' hp =>
    obtain ⟨t, ht⟩ := hr
    obtain ⟨b, hb⟩ := exists_bound t c.n
    refine ⟨upd t r b, ?_⟩
    rintro x y ⟨h1, h2, h3⟩
    simp only at h1 h2 h3
    obtain ⟨v', ho, _, _⟩ := search_of_pair h.pair h1
    have hxn : x < c.n := by
      rcases Nat.lt_or_ge x c.n with hx | hx
      · exact hx
      · obtain ⟨_, _, e⟩ := hge x hx
        rw [e] at ho; cases ho
    have hyo := outstanding_mem h hxn ho
    by_cases ey : y = r
    · subst ey
      rw [upd_self] at h3
      simp only at h3
      exact absurd (mem_destinations.2 ⟨hxn, hyo⟩) h3
    · rw [upd_ne _ _ ey] at h3
      by_cases ex : x = r
      · subst ex
        rw [upd_self, upd_ne _ _ ey]
        exact hb y (overlaps_lt hyo)
      · rw [upd_ne _ _ ex] at h2
        rw [upd_ne _ _ ex, upd_ne _ _ ey]
        exact ht x y ⟨h1, h2, h3⟩
  | answer r v d todo rest acc w ws hr' hp hw =>
    apply ranked_mono hr
    rintro x y ⟨h1, h2, h3⟩
    simp only at h1 h2 h3
    obtain ⟨v', _, hsv, _⟩ := search_of_pair h.pair (x := d) (y := r) (by rw [hw]; simp)
    rw [hw] at hsv
    injection hsv with _ hws
    subst hws
    have hne : ¬ (x = d ∧ y = r) := by
      intro e
      simp only [upd2, e, and_self, if_true] at h1
      exact h1 rfl
    have h1' : S.search x y ≠ [] := by
      simp only [upd2] at h1
      rw [if_neg hne] at h1
      exact h1
    refine ⟨h1', ?_, ?_⟩
    · by_cases ex : x = r
      · rw [ex, hp]; trivial
      · rw [upd_ne _ _ ex] at h2; exact h2
    · by_cases ey : y = r
      · subst ey
        rw [upd_self] at h3
        rw [hp]
        simp only [List.mem_cons, not_or] at h3 ⊢
        exact ⟨fun e => hne ⟨e, rfl⟩, h3⟩
      · rw [upd_ne _ _ ey] at h3; exact h3
  | skip r v d todo rest acc hr' hp hw =>
    have hw := hw rfl
    apply ranked_mono hr
    rintro x y ⟨h1, h2, h3⟩
    simp only at h1 h2 h3
    refine ⟨h1, ?_, ?_⟩
    · by_cases ex : x = r
      · rw [ex, hp]; trivial
      · rw [upd_ne _ _ ex] at h2; exact h2
    · by_cases ey : y = r
      · subst ey
        rw [upd_self] at h3
        rw [hp]
        simp only [List.mem_cons, not_or] at h3 ⊢
        refine ⟨fun e => ?_, h3⟩
        rw [e] at h1
        exact h1 hw
      · rw [upd_ne _ _ ey] at h3; exact h3
  | polled r v rest acc hr' hp =>
    apply ranked_mono hr
    rintro x y ⟨h1, h2, h3⟩
    simp only at h1 h2 h3
    refine ⟨h1, ?_, ?_⟩
    · by_cases ex : x = r
      · rw [ex, hp]; trivial
      · rw [upd_ne _ _ ex] at h2; exact h2
    · by_cases ey : y = r
      · rw [ey, hp]; simp
      · rw [upd_ne _ _ ey] at h3; exact h3
  | reply r v z todo found rest acc m ms hr' hp hm =>
    apply ranked_mono hr
    rintro x y ⟨h1, h2, h3⟩
    simp only at h1 h2 h3
    refine ⟨h1, ?_, ?_⟩
    · by_cases ex : x = r
      · rw [ex, hp]; trivial
      · rw [upd_ne _ _ ex] at h2; exact h2
    · by_cases ey : y = r
      · rw [ey, hp]; trivial
      · rw [upd_ne _ _ ey] at h3; exact h3
  | fill r v k rest acc hr' hp =>
    apply ranked_mono hr
    rintro x y ⟨h1, h2, h3⟩
    simp only at h1 h2 h3
    have ex : x ≠ r := by rintro rfl; rw [upd_self] at h2; exact h2
    have ey : y ≠ r := by rintro rfl; rw [upd_self] at h3; exact h3
    rw [upd_ne _ _ ex] at h2
    rw [upd_ne _ _ ey] at h3
    exact ⟨h1, h2, h3⟩
  | lost r v rest acc hr' hp =>
    apply ranked_mono hr
    rintro x y ⟨h1, h2, h3⟩
    simp only at h1 h2 h3
    have ex : x ≠ r := by rintro rfl; rw [upd_self] at h2; exact h2
    have ey : y ≠ r := by rintro rfl; rw [upd_self] at h3; exact h3
    rw [upd_ne _ _ ex] at h2
    rw [upd_ne _ _ ey] at h3
    exact ⟨h1, h2, h3⟩
  | finish r acc hr' hp =>
    apply ranked_mono hr
    rintro x y ⟨h1, h2, h3⟩
    simp only at h1 h2 h3
    have ex : x ≠ r := by rintro rfl; rw [upd_self] at h2; exact h2
    have ey : y ≠ r := by rintro rfl; rw [upd_self] at h3; exact h3
    rw [upd_ne _ _ ex] at h2
    rw [upd_ne _ _ ey] at h3
    exact ⟨h1, h2, h3⟩
  | again r acc hr' hp =>
    apply ranked_mono hr
    rintro x y ⟨h1, h2, h3⟩
    simp only at h1 h2 h3
    have ex : x ≠ r := by rintro rfl; rw [upd_self] at h2; exact h2
    have ey : y ≠ r := by rintro rfl; rw [upd_self] at h3; exact h3
    rw [upd_ne _ _ ex] at h2
    rw [upd_ne _ _ ey] at h3
    exact ⟨h1, h2, h3⟩
  | idleAnswer r d todo acc w ws hr' hp hw =>
    apply ranked_mono hr
    rintro x y ⟨h1, h2, h3⟩
    simp only at h1 h2 h3
    have ex : x ≠ r := by rintro rfl; rw [upd_self] at h2; exact h2
    have ey : y ≠ r := by rintro rfl; rw [upd_self] at h3; exact h3
    rw [upd_ne _ _ ex] at h2
    rw [upd_ne _ _ ey] at h3
    simp only [upd2, ey, and_false, if_false] at h1
    exact ⟨h1, h2, h3⟩
  | idleSkip r d todo acc hr' hp hw =>
    apply ranked_mono hr
    rintro x y ⟨h1, h2, h3⟩
    simp only at h1 h2 h3
    have ex : x ≠ r := by rintro rfl; rw [upd_self] at h2; exact h2
    have ey : y ≠ r := by rintro rfl; rw [upd_self] at h3; exact h3
    rw [upd_ne _ _ ex] at h2
    rw [upd_ne _ _ ey] at h3
    exact ⟨h1, h2, h3⟩
  | rootDone acc hr' hp hall =>
    apply ranked_mono hr
    rintro x y ⟨h1, h2, h3⟩
    simp only at h1 h2 h3
    have ex : x ≠ 0 := by rintro rfl; rw [upd_self] at h2; exact h2
    have ey : y ≠ 0 := by rintro rfl; rw [upd_self] at h3; exact h3
    rw [upd_ne _ _ ex] at h2
    rw [upd_ne _ _ ey] at h3
    exact ⟨h1, h2, h3⟩
  | childDone r acc hr' hne hp h0 =>
    apply ranked_mono hr
    rintro x y ⟨h1, h2, h3⟩
    simp only at h1 h2 h3
    have ex : x ≠ r := by rintro rfl; rw [upd_self] at h2; exact h2
    have ey : y ≠ r := by rintro rfl; rw [upd_self] at h3; exact h3
    rw [upd_ne _ _ ex] at h2
    rw [upd_ne _ _ ey] at h3
    exact ⟨h1, h2, h3⟩

theorem Steps.trans {c : Cfg} {i : Bool} {S T U : St} (h : Steps c i S T) (h' : Steps c i T U) : Steps c i S U := by
  induction h with
  | refl => exact h'
  | cons s _ ih => exact .cons s (ih h')

theorem Steps.one {c : Cfg} {i : Bool} {S T : St} (h : Step c i S T) : Steps c i S T := .cons h (.refl _)

/-- Ranks outside the communicator never move. -/
theorem outside_step {c : Cfg} {i : Bool} {S T : St} (h : Step c i S T) : ∀ x, c.n ≤ x → T.phase x = S.phase x := by
  intro x hx
  cases h <;> exact upd_ne _ _ (by omega)

/-- The invariants under instantaneous delivery. -/
structure Live (c : Cfg) (owner : Int → Nat) (S : St) : Prop where
  inv : Inv c owner S
  ranked : Ranked S
  outside : ∀ x, c.n ≤ x → ∃ rest acc, S.phase x = .work rest acc

theorem live_init (c : Cfg) (owner : Int → Nat) : Live c owner (init c) :=
  ⟨inv_init c owner, ranked_init c, fun _ _ => ⟨_, _, rfl⟩⟩

theorem live_step {c : Cfg} {owner : Int → Nat} (hg : Good c owner) {S T : St} (h : Live c owner S)
    (hs : Step c true S T) : Live c owner T :=
  ⟨inv_step hg h.inv hs, ranked_step h.inv h.outside h.ranked hs,
    fun x hx => by rw [outside_step hs x hx]; exact h.outside x hx⟩

theorem live_steps {c : Cfg} {owner : Int → Nat} (hg : Good c owner) {S T : St} (h : Live c owner S)
    (hs : Steps c true S T) : Live c owner T := by
  induction hs with
  | refl => exact h
  | cons s _ ih => exact ih (live_step hg h s)

/-- Work left for a rank. -/
def weight (n : Nat) : Phase → Nat
  | .work rest _ => 2 + (3 * n + 5) * rest.length
  | .sending _ todo rest _ => 2 + (3 * n + 5) * rest.length + todo.length + (2 * n + 4)
  | .polling _ todo rest _ => 2 + (3 * n + 5) * rest.length + todo.length + (n + 2)
  | .waiting _ todo _ rest _ => 2 + (3 * n + 5) * rest.length + todo.length + 1
  | .idle _ _ => 1
  | .done _ => 0
  | .failed => 0

def total (n : Nat) (S : St) : Nat := ((List.range n).map (fun r => weight n (S.phase r))).sum

theorem sum_range_upd (n r : Nat) (hr : r < n) (f g : Nat → Nat) (h : ∀ s, s ≠ r → f s = g s) :
    ((List.range n).map f).sum + g r = ((List.range n).map g).sum + f r := by
  induction n with
  | zero => omega
  | succ n ih =>
    rw [List.range_succ, List.map_append, List.map_append, List.sum_append, List.sum_append]
    simp only [List.map_cons, List.map_nil, List.sum_cons, List.sum_nil]
    by_cases e : r = n
    · subst e
      have : (List.range r).map f = (List.range r).map g :=
        List.map_congr_left fun i hi => h i (by have := List.mem_range.1 hi; omega)
      rw [this]; omega
    · have := ih (by omega)
      have := h n (fun h => e h.symm)
      omega

theorem total_upd {c : Cfg} {S T : St} (r : Nat) (hr : r < c.n) (h : ∀ s, s ≠ r → T.phase s = S.phase s) :
    total c.n T + weight c.n (S.phase r) = total c.n S + weight c.n (T.phase r) :=
  sum_range_upd c.n r hr (fun s => weight c.n (T.phase s)) (fun s => weight c.n (S.phase s)) (fun s hs => by simp only [h s hs])

theorem overlaps_length (c : Cfg) (r : Nat) : (c.overlaps r).length ≤ c.n := by
  have := List.length_filter_le (fun s => s ≠ r && Cfg.within (c.u s) (c.cindex r)) (List.range c.n)
  rw [List.length_range] at this
  exact this

theorem destinations_length (c : Cfg) (r : Nat) : (c.destinations r).length ≤ c.n := by
  have := List.length_filter_le (fun d => (c.overlaps d).contains r) (List.range c.n)
  rw [List.length_range] at this
  exact this

theorem drain {c : Cfg} {owner : Int → Nat} (hg : Good c owner) (r : Nat) (hr : r < c.n) (todo : List Nat) (acc : List Int)
    (S : St) (h : Live c owner S) (hp : S.phase r = .idle todo acc) :
    ∃ T, Steps c true S T ∧ T.phase r = .idle [] acc ∧ (∀ s, s ≠ r → T.phase s = S.phase s) ∧
      (∀ d ∈ todo, T.search d r = []) ∧ (∀ a b, S.search a b = [] → T.search a b = []) := by
  induction todo generalizing S with
  | nil => exact ⟨S, .refl S, hp, fun _ _ => rfl, fun d hd => by simp at hd, fun _ _ h => h⟩
  | cons d todo ih =>
    cases hs : S.search d r with
    | nil =>
      have st : Step c true S _ := .idleSkip S r d todo acc hr hp (fun _ => hs)
      obtain ⟨T, e1, e2, e3, e4, e5⟩ := ih _ (live_step hg h st) (upd_self _ _ _)
      refine ⟨T, .cons st e1, e2, ?_, ?_, e5⟩
      · intro s hne; rw [e3 s hne]; exact upd_ne _ _ hne
      · intro x hx
        rcases List.mem_cons.1 hx with rfl | hx
        · exact e5 _ _ hs
        · exact e4 x hx
    | cons w ws =>
      obtain ⟨v', _, hsv, _⟩ := search_of_pair h.inv.pair (x := d) (y := r) (by rw [hs]; simp)
      rw [hs] at hsv
      injection hsv with _ hws
      subst hws
      have st : Step c true S _ := .idleAnswer S r d todo acc w [] hr hp hs
      obtain ⟨T, e1, e2, e3, e4, e5⟩ := ih _ (live_step hg h st) (upd_self _ _ _)
      refine ⟨T, .cons st e1, e2, ?_, ?_, ?_⟩
      · intro s hne; rw [e3 s hne]; exact upd_ne _ _ hne
      · intro x hx
        rcases List.mem_cons.1 hx with rfl | hx
        · apply e5; simp [upd2]
        · exact e4 x hx
      · intro a b hab
        apply e5
        simp only [upd2]
        split
        · rfl
        · exact hab

/-- A rank in its closing loop answers whoever is asking. -/
theorem serve {c : Cfg} {owner : Int → Nat} (hg : Good c owner) (y x : Nat) (hy : y < c.n) (todo : List Nat) (acc : List Int)
    (S : St) (h : Live c owner S) (hp : S.phase y = .idle todo acc) (hx : x ∈ c.destinations y) :
    ∃ T, Steps c true S T ∧ (∃ todo', T.phase y = .idle todo' acc) ∧ (∀ s, s ≠ y → T.phase s = S.phase s) ∧
      T.search x y = [] := by
  obtain ⟨T, e1, e2, e3, _, _⟩ := drain hg y hy todo acc S h hp
  have st : Step c true T _ := .again T y acc hy e2
  obtain ⟨U, f1, f2, f3, f4, _⟩ := drain hg y hy (c.destinations y) acc _
    (live_step hg (live_steps hg h e1) st) (upd_self _ _ _)
  refine ⟨U, e1.trans (.cons st f1), ⟨[], f2⟩, ?_, f4 x hx⟩
  intro s hs
  rw [f3 s hs]
  simp only
  rw [upd_ne _ _ hs, e3 s hs]

/-- A step of rank `r` that lowers its weight. -/
theorem lower {c : Cfg} {S T : St} (r : Nat) (hr : r < c.n) (p : Phase) (hs : Step c true S T)
    (hT : T.phase = upd S.phase r p) (hw : weight c.n p < weight c.n (S.phase r)) :
    ∃ T, Steps c true S T ∧ total c.n T < total c.n S := by
  refine ⟨T, .one hs, ?_⟩
  have := total_upd (S := S) (T := T) r hr (by intro s hne; rw [hT]; exact upd_ne _ _ hne)
  rw [hT, upd_self] at this
  omega

theorem progress_waiting {c : Cfg} {owner : Int → Nat} (hg : Good c owner) (S : St) (h : Live c owner S)
    (hall : ∀ r, r < c.n → (match S.phase r with
      | .waiting _ _ _ _ _ => True | .idle _ _ => True | .done _ => True | _ => False))
    (t : Nat → Nat) (ht : ∀ x y, Blocked S x y → t y < t x) (k : Nat) :
    ∀ x, x < c.n → t x = k → (∃ v todo found rest acc, S.phase x = .waiting v todo found rest acc) →
      ∃ T, Steps c true S T ∧ total c.n T < total c.n S := by
  induction k using Nat.strongRecOn with
  | ind k ih =>
  intro x hx hk ⟨v, todo, found, rest, acc, hp⟩
  have ok := h.inv.phase x hx
  rw [hp] at ok
  cases todo with
  | nil =>
    have e := ok.2.2.2
    simp only [List.not_mem_nil, if_false] at e
    subst e
    refine lower x hx _ (.fill S x v _ rest acc hx hp) rfl ?_
    rw [hp]; simp only [weight]; omega
  | cons y todo =>
    have hyo : y ∈ c.overlaps x := ok.2.2.1.subset (by simp)
    have hy := overlaps_lt hyo
    have pr := h.inv.pair x y
    unfold PairOk at pr
    rw [hp] at pr
    simp only [outstanding, List.mem_cons, true_or, if_true] at pr
    rcases pr with ⟨p1, p2⟩ | ⟨p1, p2⟩
    · have hay := hall y hy
      match hpy : S.phase y with
      | .work _ _ | .sending _ _ _ _ | .polling _ _ _ _ | .failed => rw [hpy] at hay; exact hay.elim
      | .waiting v' todo' f' rest' acc' =>
        have hb : Blocked S x y := ⟨by rw [p1]; simp, by rw [hp]; trivial, by rw [hpy]; trivial⟩
        have := ht x y hb
        exact ih (t y) (by omega) y hy rfl ⟨_, _, _, _, _, hpy⟩
      | .done acc' =>
        have := h.inv.finish y hy (by rw [hpy]; rfl) x hx
        rw [hp] at this; cases this
      | .idle todo' acc' =>
        obtain ⟨T, e1, ⟨_, e2⟩, e3, e4⟩ := serve hg y x hy todo' acc' S h hpy (mem_destinations.2 ⟨hx, hyo⟩)
        have hxy : x ≠ y := by rintro rfl; rw [hp] at hpy; cases hpy
        have hT := live_steps hg h e1
        have hpx : T.phase x = .waiting v (y :: todo) found rest acc := by rw [e3 x hxy]; exact hp
        have pr := hT.inv.pair x y
        unfold PairOk at pr
        rw [hpx] at pr
        simp only [outstanding, List.mem_cons, true_or, if_true] at pr
        have hf : T.found y x = [c.lookup y v] := by
          rcases pr with ⟨q1, _⟩ | ⟨_, q2⟩
          · rw [e4] at q1; cases q1
          · exact q2
        obtain ⟨U, u1, u2⟩ := lower x hx _ (.reply T x v y todo found rest acc _ [] hx hpx hf) rfl
          (by rw [hpx]; simp only [weight, List.length_cons]; omega)
        refine ⟨U, e1.trans u1, ?_⟩
        have := total_upd (S := S) (T := T) y hy e3
        rw [hpy, e2] at this
        simp only [weight] at this
        omega
    · refine lower x hx _ (.reply S x v y todo found rest acc _ [] hx hp p2) rfl ?_
      rw [hp]; simp only [weight, List.length_cons]; omega

theorem progress {c : Cfg} {owner : Int → Nat} (hg : Good c owner) (S : St) (h : Live c owner S)
    (hnd : ∃ r, r < c.n ∧ (S.phase r).isDone = false) : ∃ T, Steps c true S T ∧ total c.n T < total c.n S := by
  by_cases hall : ∀ r, r < c.n → (match S.phase r with
      | .waiting _ _ _ _ _ => True | .idle _ _ => True | .done _ => True | _ => False)
  · by_cases hw : ∃ x, x < c.n ∧ ∃ v todo found rest acc, S.phase x = .waiting v todo found rest acc
    · obtain ⟨x, hx, hp⟩ := hw
      obtain ⟨t, ht⟩ := h.ranked
      exact progress_waiting hg S h hall t ht (t x) x hx rfl hp
    · have hfin : ∀ r, r < c.n → (∃ todo acc, S.phase r = .idle todo acc) ∨ (∃ acc, S.phase r = .done acc) := by
        intro r hr
        have := hall r hr
        match hp : S.phase r with
        | .work _ _ | .sending _ _ _ _ | .polling _ _ _ _ | .failed => rw [hp] at this; exact this.elim
        | .waiting _ _ _ _ _ => exact absurd ⟨r, hr, _, _, _, _, _, hp⟩ hw
        | .idle todo acc => exact Or.inl ⟨_, _, rfl⟩
        | .done acc => exact Or.inr ⟨_, rfl⟩
      obtain ⟨r, hr, hd⟩ := hnd
      have h0 : 0 < c.n := by omega
      rcases hfin 0 h0 with ⟨todo, acc, hp⟩ | ⟨acc, hp⟩
      · obtain ⟨T, e1, e2, e3, _, _⟩ := drain hg 0 h0 todo acc S h hp
        have st : Step c true T _ := .rootDone T acc h0 e2 (by
          intro s hs
          by_cases e : s = 0
          · subst e; rw [e2]; rfl
          · rw [e3 s e]
            rcases hfin s hs with ⟨_, _, q⟩ | ⟨_, q⟩ <;> rw [q] <;> rfl)
        obtain ⟨U, u1, u2⟩ := lower 0 h0 _ st rfl (by rw [e2]; simp [weight])
        refine ⟨U, e1.trans u1, ?_⟩
        have := total_upd (S := S) (T := T) 0 h0 e3
        rw [hp, e2] at this
        simp only [weight] at this
        omega
      · rcases hfin r hr with ⟨todo, acc', hpr⟩ | ⟨acc', hpr⟩
        · have hne : r ≠ 0 := by rintro rfl; rw [hp] at hpr; cases hpr
          obtain ⟨T, e1, e2, e3, _, _⟩ := drain hg r hr todo acc' S h hpr
          have st : Step c true T _ := .childDone T r acc' hr hne e2 (by rw [e3 0 (Ne.symm hne), hp]; rfl)
          obtain ⟨U, u1, u2⟩ := lower r hr _ st rfl (by rw [e2]; simp [weight])
          refine ⟨U, e1.trans u1, ?_⟩
          have := total_upd (S := S) (T := T) r hr e3
          rw [hpr, e2] at this
          simp only [weight] at this
          omega
        · rw [hpr] at hd; cases hd
  · have ⟨r, hr'⟩ := Classical.not_forall.1 hall
    have ⟨hr, hnp⟩ := Classical.not_imp.1 hr'
    have ok := h.inv.phase r hr
    match hp : S.phase r with
    | .waiting _ _ _ _ _ | .idle _ _ | .done _ => rw [hp] at hnp; exact absurd trivial hnp
    | .failed => rw [hp] at ok; exact ok.elim
    | .work [] acc =>
      exact lower r hr _ (.finish S r acc hr hp) rfl (by rw [hp]; simp [weight])
    | .work (v :: rest) acc =>
      cases hl : c.lookup r v with
      | some k =>
        exact lower r hr _ (.own S r v rest acc k hr hp hl) rfl (by rw [hp]; simp [weight, Nat.mul_add])
      | none =>
        rw [hp] at ok
        obtain ⟨pre, e1, _⟩ := ok
        have hv := hg.nonneg r hr v (by rw [e1]; simp)
        refine lower r hr _ (.ask S r v rest acc hr hp hl hv) rfl ?_
        rw [hp]
        have := overlaps_length c r
        simp only [weight, List.length_cons, Nat.mul_add, Nat.mul_one]
        omega
    | .sending v (y :: todo) rest acc =>
      exact lower r hr _ (.send S r v y todo rest acc hr hp) rfl (by rw [hp]; simp [weight])
    | .sending v [] rest acc =>
      refine lower r hr _ (.sent S r v rest acc hr hp) rfl ?_
      rw [hp]
      have := destinations_length c r
      simp only [weight, List.length_nil]
      omega
    | .polling v (d :: todo) rest acc =>
      cases hs : S.search d r with
      | nil => exact lower r hr _ (.skip S r v d todo rest acc hr hp (fun _ => hs)) rfl (by rw [hp]; simp [weight])
      | cons w ws => exact lower r hr _ (.answer S r v d todo rest acc w ws hr hp hs) rfl (by rw [hp]; simp [weight])
    | .polling v [] rest acc =>
      refine lower r hr _ (.polled S r v rest acc hr hp) rfl ?_
      rw [hp]
      have := overlaps_length c r
      simp only [weight, List.length_nil]
      omega

theorem can_finish {c : Cfg} {owner : Int → Nat} (hg : Good c owner) (k : Nat) :
    ∀ S, Live c owner S → total c.n S = k → ∃ T, Steps c true S T ∧ ∀ r, r < c.n → (T.phase r).isDone = true := by
  induction k using Nat.strongRecOn with
  | ind k ih =>
    intro S h hk
    by_cases hd : ∀ r, r < c.n → (S.phase r).isDone = true
    · exact ⟨S, .refl S, hd⟩
    · have ⟨r, hr'⟩ := Classical.not_forall.1 hd
      have ⟨hr, hn⟩ := Classical.not_imp.1 hr'
      obtain ⟨T, e1, e2⟩ := progress hg S h ⟨r, hr, by simpa using hn⟩
      obtain ⟨U, f1, f2⟩ := ih (total c.n T) (by omega) T (live_steps hg h e1) rfl
      exact ⟨U, e1.trans f1, f2⟩

end Ocgis.Reindex
