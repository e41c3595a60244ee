import Verif.Model.Comm
namespace Ocgis.Comm
variable {R : Type}

theorem local_det {i : Nat} {x y z : Proc R × Chan} (h : Local i x y) (h' : Local i x z) : y = z := by
  cases h with
  | send => cases h'; rfl
  | recv s t k c v rest e =>
    cases h' with
    | recv _ _ _ _ v' rest' e' => rw [e] at e'; injection e' with a b; subst a; rfl

theorem push_push (c : Chan) (i j d d' t t' : Nat) (v v' : Msg) (h : i ≠ j) :
    (c.push i d t v).push j d' t' v' = (c.push j d' t' v').push i d t v := by
  funext s e u
  unfold Chan.push
  grind

theorem push_pop (c : Chan) (i j d s t t' : Nat) (v w : Msg) (rest : List Msg) (h : i ≠ j) (hc : c s j t' = w :: rest) :
    (c.push i d t v).pop s j t' = (c.pop s j t').push i d t v := by
  funext a e u
  unfold Chan.push Chan.pop
  by_cases h1 : a = i ∧ e = d ∧ u = t
  · by_cases h2 : a = s ∧ e = j ∧ u = t'
    · obtain ⟨rfl, rfl, rfl⟩ := h2
      simp only [h1, if_true, and_self]
      obtain ⟨rfl, rfl, rfl⟩ := h1
      simp [hc]
    · rw [if_neg h2, if_neg h2]
  · simp [h1]

theorem pop_pop (c : Chan) (i j s s' t t' : Nat) (h : i ≠ j) :
    (c.pop s i t).pop s' j t' = (c.pop s' j t').pop s i t := by
  funext a e u
  unfold Chan.pop
  grind

theorem push_get (c : Chan) (i d t s j t' : Nat) (v w : Msg) (rest : List Msg) (hc : c s j t' = w :: rest) :
    ∃ rest', (c.push i d t v) s j t' = w :: rest' := by
  unfold Chan.push
  by_cases h : s = i ∧ j = d ∧ t' = t
  · exact ⟨rest ++ [v], by simp [h]; obtain ⟨rfl, rfl, rfl⟩ := h; simp [hc]⟩
  · exact ⟨rest, by simp [h, hc]⟩

theorem pop_get (c : Chan) (s i t s' j t' : Nat) (h : i ≠ j) : (c.pop s i t) s' j t' = c s' j t' := by
  unfold Chan.pop; grind

/-- Steps of different ranks commute. -/
theorem local_comm {i j : Nat} (hij : i ≠ j) {p q p' q' : Proc R} {c c1 c2 : Chan}
    (h1 : Local i (p, c) (p', c1)) (h2 : Local j (q, c) (q', c2)) :
    ∃ c3, Local j (q, c1) (q', c3) ∧ Local i (p, c2) (p', c3) := by
  cases h1 with
  | send d t v k c =>
    cases h2 with
    | send d' t' v' k' c => exact ⟨_, .send _ _ _ _ _, by rw [push_push _ _ _ _ _ _ _ _ _ hij]; exact .send _ _ _ _ _⟩
    | recv s t' k c w rest e =>
      obtain ⟨r', e'⟩ := push_get c i d t s j t' v w rest e
      exact ⟨_, .recv _ _ _ _ _ _ e', by rw [push_pop _ _ _ _ _ _ _ _ _ _ hij e]; exact .send _ _ _ _ _⟩
  | recv s t k c w rest e =>
    cases h2 with
    | send d' t' v' k' c =>
      obtain ⟨r', e'⟩ := push_get c j d' t' s i t v' w rest e
      refine ⟨_, ?_, .recv _ _ _ _ _ _ e'⟩
      rw [push_pop _ _ _ _ _ _ _ _ _ _ (Ne.symm hij) e]
      exact .send _ _ _ _ _
    | recv s' t' k' c w' rest' e' =>
      refine ⟨_, .recv _ _ _ _ _ _ (by rw [pop_get _ _ _ _ _ _ _ hij]; exact e'), ?_⟩
      rw [pop_pop _ _ _ _ _ _ _ hij]
      exact .recv _ _ _ _ _ _ (by rw [pop_get _ _ _ _ _ _ _ (Ne.symm hij)]; exact e)

theorem offer_of_local {i : Nat} {p p' : Proc R} {c c' : Chan} (h : Local i (p, c) (p', c')) : p.offer = none := by
  cases h <;> rfl

theorem no_coll_of_local {S : Sys R} {i : Nat} {p p' : Proc R} {c' : Chan} (hp : S.procs[i]? = some p)
    (h : Local i (p, S.chan) (p', c')) (vs : List Msg) (hv : S.procs.map Proc.offer = vs.map some) : False := by
  have h1 : (S.procs.map Proc.offer)[i]? = some none := by rw [List.getElem?_map, hp, Option.map_some, offer_of_local h]
  rw [hv, List.getElem?_map] at h1
  cases hvi : vs[i]? with
  | none => rw [hvi] at h1; cases h1
  | some v => rw [hvi] at h1; cases h1

/-- One-step diamond. -/
theorem diamond {S A B : Sys R} (h1 : Step S A) (h2 : Step S B) : A = B ∨ ∃ C, Step A C ∧ Step B C := by
  cases h1 with
  | loc i p p' c' hp hl =>
    cases h2 with
    | loc j q q' c'' hq hl' =>
      by_cases hij : i = j
      · subst hij
        rw [hp] at hq; injection hq with hq; subst hq
        have := local_det hl hl'
        injection this with e1 e2
        left; rw [e1, e2]
      · right
        obtain ⟨c3, a, b⟩ := local_comm hij hl hl'
        refine ⟨⟨(S.procs.set i p').set j q', c3⟩, ?_, ?_⟩
        · exact Step.loc ⟨S.procs.set i p', c'⟩ j q q' c3 (by rw [List.getElem?_set_ne hij]; exact hq) a
        · rw [List.set_comm _ _ hij]
          exact Step.loc ⟨S.procs.set j q', c''⟩ i p p' c3 (by rw [List.getElem?_set_ne (Ne.symm hij)]; exact hp) b
    | coll vs hn hv => exact (no_coll_of_local hp hl vs hv).elim
  | coll vs hn hv =>
    cases h2 with
    | loc j q q' c'' hq hl' => exact (no_coll_of_local hq hl' vs hv).elim
    | coll vs' hn' hv' =>
      left
      have : vs = vs' := by
        have e := hv.symm.trans hv'
        exact List.map_inj_right (fun x y h => by injection h) |>.1 e
      rw [this]

theorem steps_drop {n : Nat} {S A F : Sys R} (hF : ∀ T, ¬ Step F T) (h : Steps n S F) (hA : Step S A) :
    1 ≤ n ∧ Steps (n - 1) A F := by
  induction n generalizing S A with
  | zero => cases h; exact absurd hA (hF _)
  | succ n ih =>
    cases h with
    | @cons _ _ B _ hB hr =>
      refine ⟨by omega, ?_⟩
      simp only [Nat.add_sub_cancel]
      rcases diamond hA hB with rfl | ⟨C, hAC, hBC⟩
      · exact hr
      · obtain ⟨h1, h2⟩ := ih hr hBC
        have e : n = n - 1 + 1 := by omega
        rw [e]
        exact .cons hAC h2

/-- If one execution ends in a state where nothing can happen, every execution does. -/
theorem always_of_steps {n : Nat} {S F : Sys R} (hF : ∀ T, ¬ Step F T) (h : Steps n S F) : AlwaysReaches S F := by
  refine ⟨hF, n, ?_⟩
  intro m T hm
  induction m generalizing n S with
  | zero => cases hm; exact ⟨by omega, h⟩
  | succ m ih =>
    cases hm with
    | cons h1 h2 =>
      obtain ⟨a, b⟩ := steps_drop hF h h1
      obtain ⟨c, d⟩ := ih b h2
      refine ⟨by omega, ?_⟩
      have e : n - (m + 1) = n - 1 - m := by omega
      rw [e]; exact d

theorem steps_trans {a b : Nat} {S T U : Sys R} (h : Steps a S T) (h' : Steps b T U) : Steps (a + b) S U := by
  induction h with
  | refl => rw [Nat.zero_add]; exact h'
  | @cons n _ _ _ s _ ih =>
    have e : n + 1 + b = n + b + 1 := by omega
    rw [e]; exact .cons s (ih h')

/-- Reachability without counting. -/
def Reach (S T : Sys R) : Prop := ∃ n, Steps n S T

theorem Reach.refl (S : Sys R) : Reach S S := ⟨0, .refl S⟩

theorem Reach.trans {S T U : Sys R} (h : Reach S T) (h' : Reach T U) : Reach S U := by
  obtain ⟨a, ha⟩ := h
  obtain ⟨b, hb⟩ := h'
  exact ⟨_, steps_trans ha hb⟩

theorem Reach.step {S T : Sys R} (h : Step S T) : Reach S T := ⟨1, .cons h (.refl T)⟩

theorem stuck_of_rets {ps : List (Proc R)} {c : Chan} (h : ∀ p ∈ ps, ∃ r, p = .ret r) (T : Sys R) : ¬ Step ⟨ps, c⟩ T := by
  intro hs
  cases hs with
  | loc i p p' c' hp hl =>
    obtain ⟨r, rfl⟩ := h p (List.mem_of_getElem? hp)
    cases hl
  | coll vs hn hv =>
    cases ps with
    | nil => exact hn rfl
    | cons p ps =>
      obtain ⟨r, rfl⟩ := h p (by simp)
      cases vs with
      | nil => simp at hv
      | cons v vs => simp [Proc.offer] at hv

theorem returns_of_reach {n : Nat} {prog : Nat → Proc R} {result : Nat → R}
    (h : Reach (start n prog) ⟨(List.range n).map (fun i => Proc.ret (result i)), Chan.empty⟩) :
    AlwaysReturns n prog result := by
  obtain ⟨k, hk⟩ := h
  refine always_of_steps (stuck_of_rets ?_) hk
  intro p hp
  simp only [List.mem_map] at hp
  obtain ⟨i, _, rfl⟩ := hp
  exact ⟨_, rfl⟩

/-- Rank `i`, alone, takes its program and the channels from one state to another. -/
inductive Run (i : Nat) : Proc R × Chan → Proc R × Chan → Prop
  | refl (x) : Run i x x
  | cons {x y z} : Local i x y → Run i y z → Run i x z

theorem Run.trans {i : Nat} {x y z : Proc R × Chan} (h : Run i x y) (h' : Run i y z) : Run i x z := by
  induction h with
  | refl => exact h'
  | cons l _ ih => exact .cons l (ih h')

theorem reach_of_run {i : Nat} {x y : Proc R × Chan} (h : Run i x y) (ps : List (Proc R)) (hp : ps[i]? = some x.1) :
    Reach ⟨ps, x.2⟩ ⟨ps.set i y.1, y.2⟩ := by
  induction h generalizing ps with
  | refl x =>
    have e : ps.set i x.1 = ps := by
      apply List.ext_getElem?
      intro j
      rw [List.getElem?_set]
      grind
    rw [e]
    exact Reach.refl _
  | @cons x y z l _ ih =>
    obtain ⟨p, c⟩ := x
    obtain ⟨p', c'⟩ := y
    have s := Step.loc ⟨ps, c⟩ i p p' c' hp l
    have hlt : i < ps.length := by
      rcases Nat.lt_or_ge i ps.length with h | h
      · exact h
      · rw [List.getElem?_eq_none h] at hp; cases hp
    have := ih (ps.set i p') (by rw [List.getElem?_set_self hlt])
    rw [List.set_set] at this
    exact (Reach.step s).trans this

/-- Running the ranks one after the other: `chans r` is the state of the channels after the first `r` ranks. -/
theorem reach_sequential (n : Nat) (f g : Nat → Proc R) (chans : Nat → Chan)
    (h : ∀ r, r < n → Run r (f r, chans r) (g r, chans (r + 1))) :
    Reach ⟨(List.range n).map f, chans 0⟩ ⟨(List.range n).map g, chans n⟩ := by
  suffices H : ∀ k, k ≤ n → Reach ⟨(List.range n).map f, chans 0⟩
      ⟨(List.range n).map (fun i => if i < k then g i else f i), chans k⟩ by
    have := H n (Nat.le_refl n)
    have e : (List.range n).map (fun i => if i < n then g i else f i) = (List.range n).map g := by
      apply List.map_congr_left
      intro i hi
      rw [if_pos (List.mem_range.1 hi)]
    rw [e] at this
    exact this
  intro k
  induction k with
  | zero => intro _; simp only [Nat.not_lt_zero, if_false]; exact Reach.refl _
  | succ k ih =>
    intro hk
    refine (ih (by omega)).trans ?_
    have r := reach_of_run (h k (by omega)) ((List.range n).map (fun i => if i < k then g i else f i))
      (by rw [List.getElem?_map, List.getElem?_range (by omega)]; simp)
    have e : ((List.range n).map (fun i => if i < k then g i else f i)).set k (g k)
        = (List.range n).map (fun i => if i < k + 1 then g i else f i) := by
      apply List.ext_getElem
      · simp
      · intro j h1 h2
        simp only [List.length_set, List.length_map, List.length_range] at h1
        rw [List.getElem_set]
        simp only [List.getElem_map, List.getElem_range]
        by_cases hj : k = j
        · subst hj; simp
        · rw [if_neg hj]
          by_cases h3 : j < k
          · rw [if_pos h3, if_pos (by omega)]
          · rw [if_neg h3, if_neg (by omega)]
    rw [e] at r
    exact r

/-- A collective operation every rank has reached. -/
theorem reach_coll (n : Nat) (hn : 0 < n) (v : Nat → Msg) (k : Nat → List Msg → Proc R) (c : Chan) :
    Reach ⟨(List.range n).map (fun i => Proc.coll (v i) (k i)), c⟩
      ⟨(List.range n).map (fun i => k i ((List.range n).map v)), c⟩ := by
  have s := Step.coll ⟨(List.range n).map (fun i => Proc.coll (v i) (k i)), c⟩ ((List.range n).map v)
    (by simp; omega) (by simp [Function.comp_def, Proc.offer])
  simp only [List.map_map, Function.comp_def, Proc.resume] at s
  exact Reach.step s

end Ocgis.Comm
