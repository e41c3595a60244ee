import Verif.Spec.FileScope
/-!
# Helpers for the properties of open files
-/
namespace Ocgis.Proofs.FileScope
open Ocgis.FileScope Ocgis.Spec

theorem opened_append (id : Nat) (a b : List Ev) : timesOpened id (a ++ b) = timesOpened id a + timesOpened id b :=
  List.countP_append

theorem closed_append (id : Nat) (a b : List Ev) : timesClosed id (a ++ b) = timesClosed id a + timesClosed id b :=
  List.countP_append

theorem opened_open (id i : Nat) (u : List String) (m : String) (kw : Kw) :
    timesOpened id [.opened i u m kw] = if i = id then 1 else 0 := by
  by_cases h : i = id <;> simp [timesOpened, List.countP_cons, h]

theorem closed_open (id i : Nat) (u : List String) (m : String) (kw : Kw) : timesClosed id [.opened i u m kw] = 0 := by
  simp [timesClosed]

theorem opened_close (id i : Nat) : timesOpened id [.closed i] = 0 := by simp [timesOpened]

theorem closed_close (id i : Nat) : timesClosed id [.closed i] = if i = id then 1 else 0 := by
  by_cases h : i = id <;> simp [timesClosed, List.countP_cons, h]

theorem opened_use (id : Nat) (h : Handle) : timesOpened id [.used h] = 0 := by simp [timesOpened]

theorem closed_use (id : Nat) (h : Handle) : timesClosed id [.used h] = 0 := by simp [timesClosed]

/-- What a part of a run adds: the files opened in it are each opened once and closed once, afterwards; no other is closed;
whatever is used is open at that moment. -/
structure Clean (E : Libs) (opens : List Nat) (lo hi : Nat) (new : List Ev) : Prop where
  le : lo ≤ hi
  once : ∀ id, lo ≤ id → id < hi → timesOpened id new = 1 ∧ timesClosed id new = 1
  none : ∀ id, id < lo ∨ hi ≤ id → timesOpened id new = 0 ∧ timesClosed id new = 0
  order : ∀ a b id, new = a ++ .closed id :: b → timesOpened id a = 1
  use : ∀ a b h, new = a ++ .used h :: b →
    h.id ∈ opens ∨ (timesOpened h.id a = 1 ∧ timesClosed h.id a = 0) ∨ (E.vector = true ∧ h.group = ["iterator"])

theorem Clean.nil (E : Libs) (opens : List Nat) (n : Nat) : Clean E opens n n [] where
  le := Nat.le_refl n
  once := fun id h1 h2 => by omega
  none := fun _ _ => ⟨rfl, rfl⟩
  order := fun a b id h => by simp at h
  use := fun a b h e => by simp at e

/-- A list that is two joined, split at an element: the element is in one of them. -/
theorem split_join {α : Type _} (x y a b : List α) (e : α) (h : x ++ y = a ++ e :: b) :
    (∃ b', x = a ++ e :: b') ∨ (∃ a', a = x ++ a' ∧ y = a' ++ e :: b) := by
  induction x generalizing a with
  | nil => exact Or.inr ⟨a, rfl, h⟩
  | cons c x ih =>
    cases a with
    | nil =>
      simp only [List.cons_append, List.nil_append, List.cons.injEq] at h
      exact Or.inl ⟨x, by rw [h.1]; rfl⟩
    | cons d a =>
      simp only [List.cons_append, List.cons.injEq] at h
      obtain ⟨rfl, h⟩ := h
      rcases ih a h with ⟨b', hb⟩ | ⟨a', ha, hy⟩
      · exact Or.inl ⟨b', by rw [hb]; rfl⟩
      · exact Or.inr ⟨a', by rw [ha]; rfl, hy⟩

theorem Clean.join {E : Libs} {opens : List Nat} {lo mid hi : Nat} {a b : List Ev} (h1 : Clean E opens lo mid a)
    (h2 : Clean E opens mid hi b) (ho : ∀ i ∈ opens, i < lo) : Clean E opens lo hi (a ++ b) where
  le := Nat.le_trans h1.le h2.le
  once := fun id hl hh => by
    rw [opened_append, closed_append]
    by_cases hm : id < mid
    · have x := h1.once id hl hm
      have y := h2.none id (Or.inl hm)
      omega
    · have x := h1.none id (Or.inr (by omega))
      have y := h2.once id (by omega) hh
      omega
  none := fun id h => by
    have := h1.le
    have := h2.le
    rw [opened_append, closed_append]
    have x := h1.none id (by omega)
    have y := h2.none id (by omega)
    omega
  order := fun p q id h => by
    rcases split_join a b p q _ h with ⟨b', hb⟩ | ⟨a', ha, hy⟩
    · exact h1.order p b' id hb
    · have x := h2.order a' q id hy
      rw [ha, opened_append, x]
      -- the file is opened in the second part, so not in the first
      by_cases hm : id < mid
      · have y := h2.none id (Or.inl hm)
        rw [hy, opened_append] at y
        omega
      · have y := h1.none id (Or.inr (by omega))
        omega
  use := fun p q h e => by
    rcases split_join a b p q _ e with ⟨b', hb⟩ | ⟨a', ha, hy⟩
    · exact h1.use p b' h hb
    · rcases h2.use a' q h hy with x | x | x
      · exact Or.inl x
      · refine Or.inr (Or.inl ?_)
        rw [ha, opened_append, closed_append]
        by_cases hm : h.id < mid
        · have y := h2.none h.id (Or.inl hm)
          rw [hy, opened_append] at y
          omega
        · have y := h1.none h.id (Or.inr (by omega))
          omega
      · exact Or.inr (Or.inr x)

theorem Clean.used (E : Libs) (opens : List Nat) (n : Nat) (h : Handle)
    (hh : h.id ∈ opens ∨ (E.vector = true ∧ h.group = ["iterator"])) : Clean E opens n n [.used h] where
  le := Nat.le_refl n
  once := fun id h1 h2 => by omega
  none := fun id _ => ⟨opened_use id h, closed_use id h⟩
  order := fun a b id e => by
    cases a with
    | nil => simp at e
    | cons x a => simp at e
  use := fun a b h' e => by
    cases a with
    | nil =>
      simp at e
      obtain ⟨rfl, _⟩ := e
      rcases hh with x | x
      · exact Or.inl x
      · exact Or.inr (Or.inr x)
    | cons x a => simp at e

/-- Opening, a clean part with the file open, closing. -/
theorem Clean.wrap {E : Libs} {opens : List Nat} {n hi : Nat} {b : List Ev} (u : List String) (m : String) (kw : Kw)
    (h : Clean E (n :: opens) (n + 1) hi b) (ho : ∀ i ∈ opens, i < n) :
    Clean E opens n hi ([.opened n u m kw] ++ b ++ [.closed n]) where
  le := by have := h.le; omega
  once := fun id hl hh => by
    rw [opened_append, closed_append, opened_append, closed_append, opened_open, closed_open, opened_close, closed_close]
    by_cases e : n = id
    · subst e
      have := h.none n (Or.inl (by omega))
      rw [this.1, this.2]
      simp
    · have := h.once id (by omega) hh
      simp only [if_neg e]
      omega
  none := fun id hi' => by
    have := h.le
    rw [opened_append, closed_append, opened_append, closed_append, opened_open, closed_open, opened_close, closed_close]
    have x := h.none id (by omega)
    have e : ¬ n = id := by omega
    simp only [if_neg e]
    omega
  order := fun p q id e => by
    rcases split_join ([.opened n u m kw] ++ b) [.closed n] p q _ e with ⟨b', hb⟩ | ⟨a', ha, hy⟩
    · rcases split_join [.opened n u m kw] b p b' _ hb with ⟨b'', hb'⟩ | ⟨a', ha, hy⟩
      · cases p with
        | nil => simp at hb'
        | cons x p => simp at hb'
      · have x := h.order a' b' id hy
        rw [ha, opened_append, x, opened_open]
        have : ¬ n = id := by
          intro e
          subst e
          have y := h.none n (Or.inl (by omega))
          rw [hy, opened_append] at y
          omega
        rw [if_neg this]
    · cases a' with
      | cons x a' => simp at hy
      | nil =>
        simp at hy
        obtain ⟨rfl, _⟩ := hy
        rw [ha, List.append_nil, opened_append, opened_open, if_pos rfl, (h.none n (Or.inl (by omega))).1]
  use := fun p q hd e => by
    rcases split_join ([.opened n u m kw] ++ b) [.closed n] p q _ e with ⟨b', hb⟩ | ⟨a', ha, hy⟩
    · rcases split_join [.opened n u m kw] b p b' _ hb with ⟨b'', hb'⟩ | ⟨a', ha, hy⟩
      · cases p with
        | nil => simp at hb'
        | cons x p => simp at hb'
      · rw [ha]
        rcases h.use a' b' hd hy with x | x | x
        · rcases List.mem_cons.1 x with rfl | x
          · refine Or.inr (Or.inl ?_)
            have y := h.none hd.id (Or.inl (by omega))
            rw [hy, opened_append, closed_append] at y
            rw [opened_append, closed_append, opened_open, closed_open, if_pos rfl]
            omega
          · exact Or.inl x
        · refine Or.inr (Or.inl ?_)
          have : ¬ n = hd.id := by
            intro e
            have y := h.none hd.id (Or.inl (by omega))
            rw [hy, opened_append] at y
            omega
          rw [opened_append, closed_append, opened_open, closed_open, if_neg this]
          omega
        · exact Or.inr (Or.inr x)
    · cases a' with
      | cons x a' => simp at hy
      | nil => simp at hy

theorem GivenOpen.mono (p : Prog) (a b : List Nat) (h : ∀ i ∈ a, i ∈ b) (hp : GivenOpen a p) : GivenOpen b p := by
  induction p with
  | done => trivial
  | fail e => trivial
  | use k ih => exact ih hp
  | scope s body k ih1 ih2 =>
    exact ⟨fun x hx => h _ (hp.1 x hx), fun rd hr x hx => h _ (hp.2.1 rd hr x hx), ih1 hp.2.2.1, ih2 hp.2.2.2⟩
  | attempt body k ih1 ih2 => exact ⟨ih1 hp.1, ih2 hp.2⟩

theorem kwSet_keys (d : Kw) (k : String) (v : List String) (x : String × List String) (h : x ∈ kwSet d k v) :
    x.1 = k ∨ ∃ y ∈ d, y.1 = x.1 := by
  unfold kwSet at h
  split at h
  · obtain ⟨y, hy, rfl⟩ := List.mem_map.1 h
    by_cases e : (y.1 == k) = true
    · rw [if_pos e]; exact Or.inl rfl
    · rw [if_neg e]; exact Or.inr ⟨y, hy, rfl⟩
  · rcases List.mem_append.1 h with h | h
    · exact Or.inr ⟨x, h, rfl⟩
    · rw [List.mem_singleton.1 h]; exact Or.inl rfl

theorem kwUpdate_keys (e d : Kw) (x : String × List String) (h : x ∈ kwUpdate d e) :
    (∃ y ∈ d, y.1 = x.1) ∨ ∃ y ∈ e, y.1 = x.1 := by
  unfold kwUpdate at h
  induction e generalizing d with
  | nil => exact Or.inl ⟨x, h, rfl⟩
  | cons p e ih =>
    rw [List.foldl_cons] at h
    rcases ih _ h with ⟨y, hy, e1⟩ | ⟨y, hy, e1⟩
    · rcases kwSet_keys d p.1 p.2 y hy with e2 | ⟨z, hz, e2⟩
      · exact Or.inr ⟨p, by simp, by rw [← e1, e2]⟩
      · exact Or.inl ⟨z, hz, by rw [e2, e1]⟩
    · exact Or.inr ⟨y, by simp [hy], e1⟩

theorem lookup_absent (d : Kw) (k : String) (h : ∀ p ∈ d, p.1 ≠ k) : d.lookup k = none := by
  induction d with
  | nil => rfl
  | cons p d ih =>
    have e : (k == p.1) = false := by
      have := h p (by simp)
      simpa using fun x => this x.symm
    rw [List.lookup_cons, e]
    exact ih fun q hq => h q (by simp [hq])

theorem kwSet_lookup (d : Kw) (k x : String) (v : List String) :
    (kwSet d k v).lookup x = if x = k then some v else d.lookup x := by
  unfold kwSet
  by_cases ha : d.any (fun p => p.1 == k) = true
  · rw [if_pos ha]
    induction d with
    | nil => simp at ha
    | cons p d ih =>
      rw [List.map_cons]
      by_cases hp : (p.1 == k) = true
      · rw [if_pos hp]
        have hpk : p.1 = k := by simpa using hp
        rw [List.lookup_cons, List.lookup_cons]
        by_cases hx : x = k
        · subst hx; simp
        · have e1 : (x == k) = false := by simpa using hx
          have e2 : (x == p.1) = false := by rw [hpk]; exact e1
          rw [e1, e2, if_neg hx]
          simp only
          clear ih ha
          induction d with
          | nil => rfl
          | cons q d ih =>
            rw [List.map_cons]
            by_cases hq : (q.1 == k) = true
            · have hqk : q.1 = k := by simpa using hq
              rw [if_pos hq, List.lookup_cons, List.lookup_cons, e1, hqk, e1]
              exact ih
            · rw [if_neg hq, List.lookup_cons, List.lookup_cons, ih]
      · rw [if_neg hp]
        have hpk : p.1 ≠ k := by simpa using hp
        rw [List.any_cons] at ha
        have ha' : d.any (fun p => p.1 == k) = true := by
          simp only [Bool.or_eq_true] at ha
          rcases ha with h | h
          · exact absurd h hp
          · exact h
        rw [List.lookup_cons, List.lookup_cons, ih ha']
        cases hx : (x == p.1) with
        | false => rfl
        | true =>
          have : x = p.1 := by simpa using hx
          simp only
          rw [if_neg (by rw [this]; exact hpk)]
  · rw [if_neg ha, List.lookup_append]
    by_cases hx : x = k
    · subst hx
      have : d.lookup x = none := lookup_absent d x fun p hp e => ha (List.any_eq_true.2 ⟨p, hp, by simpa using e⟩)
      rw [this, if_pos rfl]; simp
    · have e1 : (x == k) = false := by simpa using hx
      rw [if_neg hx, List.lookup_cons, e1]; simp

theorem kwUpdate_lookup (e d : Kw) (k : String) :
    (kwUpdate d e).lookup k = match e.reverse.lookup k with
      | some v => some v
      | none => d.lookup k := by
  unfold kwUpdate
  induction e generalizing d with
  | nil => rfl
  | cons p e ih =>
    rw [List.foldl_cons, ih, List.reverse_cons, List.lookup_append]
    cases e.reverse.lookup k with
    | some v => rfl
    | none =>
      rw [kwSet_lookup, List.lookup_cons]
      by_cases hx : k = p.1
      · subst hx; simp
      · have e1 : (k == p.1) = false := by simpa using hx
        rw [if_neg hx, e1]; simp

/-- The keyword arguments a scope opens with. -/
def effective (s : Scope) (rd : Option Req) : Kw :=
  match rd with
  | none => s.kw
  | some rd => match rd.kw with
    | none => s.kw
    | some k => kwUpdate s.kw k

/-- Opening without groups: refused, or an iterator, or a new file. -/
theorem openFile_cases (E : Libs) (u : List String) (m : String) (kw : Kw) (w : World)
    (hg : kw.lookup "group_indexing" = none) :
    (openFile E u m kw w = (w, .ok ⟨0, ["iterator"]⟩) ∧ E.vector = true ∧ m = "r") ∨
    (openFile E u m kw w = (w, .error .ioError) ∧ E.canOpen u m = false) ∨
    (∃ kw', openFile E u m kw w = (⟨w.next :: w.opens, w.next + 1, w.log ++ [.opened w.next u m kw']⟩, .ok ⟨w.next, []⟩) ∧
      (E.vector && m == "r") = false) := by
  unfold openFile
  by_cases hv : (E.vector && m == "r") = true
  · rw [if_pos hv]
    simp only [Bool.and_eq_true, beq_iff_eq] at hv
    exact Or.inl ⟨rfl, hv.1, hv.2⟩
  · rw [if_neg hv]
    right
    simp only [hg, Option.getD_none, if_true]
    have e : (if E.netcdf = true then ([] : List String) else []) = [] := by split <;> rfl
    rw [e]
    by_cases hc : E.canOpen u m = true
    · rw [if_pos hc]
      exact Or.inr ⟨_, rfl, by simpa using hv⟩
    · rw [if_neg hc]
      exact Or.inl ⟨rfl, by simpa using hc⟩

/-- The ways into a scope. -/
theorem enterScope_cases (E : Libs) (s : Scope) (w : World)
    (h1 : ∀ p ∈ s.kw, p.1 ≠ "group_indexing")
    (h2 : ∀ rd, s.driver = some rd → ∀ kw, rd.kw = some kw → ∀ p ∈ kw, p.1 ≠ "group_indexing") :
    (∃ e, enterScope E s w = (w, .error e)) ∨
    (∃ h, enterScope E s w = (w, .ok (some h, false)) ∧
      (s.given = some (.handle h) ∨ ∃ rd, s.driver = some rd ∧ rd.opened = some h)) ∨
    enterScope E s w = (w, .ok (none, false)) ∨
    (enterScope E s w = (w, .ok (some ⟨0, ["iterator"]⟩, true)) ∧ E.vector = true ∧ s.mode = "r") ∨
    (∃ u kw', enterScope E s w = (⟨w.next :: w.opens, w.next + 1, w.log ++ [.opened w.next u s.mode kw']⟩, .ok (some ⟨w.next, []⟩, true)) ∧
      (E.vector && s.mode == "r") = false) := by
  have hopen : ∀ (u : List String) (rd : Option Req), (rd = none ∨ ∃ r, rd = some r ∧ s.driver = some r) →
      chooseTarget s = .ok (.uris u, rd) →
      (∃ e, enterScope E s w = (w, .error e)) ∨
      (enterScope E s w = (w, .ok (some ⟨0, ["iterator"]⟩, true)) ∧ E.vector = true ∧ s.mode = "r") ∨
      (∃ u kw', enterScope E s w = (⟨w.next :: w.opens, w.next + 1, w.log ++ [.opened w.next u s.mode kw']⟩, .ok (some ⟨w.next, []⟩, true)) ∧
        (E.vector && s.mode == "r") = false) := by
    intro u rd hrd hc
    have hk : (effective s rd).lookup "group_indexing" = none := by
      apply lookup_absent
      intro p hp
      rcases hrd with rfl | ⟨r, rfl, hr⟩
      · exact h1 p hp
      · cases hk : r.kw with
        | none =>
          simp only [effective, hk] at hp
          exact h1 p hp
        | some k =>
          simp only [effective, hk] at hp
          rcases kwUpdate_keys k s.kw p hp with ⟨y, hy, e⟩ | ⟨y, hy, e⟩
          · rw [← e]; exact h1 y hy
          · rw [← e]; exact h2 r hr k hk y hy
    have he : enterScope E s w = (match openFile E u s.mode (effective s rd) w with
        | (w', .error e) => (w', .error e)
        | (w', .ok h) => (w', .ok (some h, true))) := by
      unfold enterScope
      rw [hc]
      rfl
    rcases openFile_cases E u s.mode (effective s rd) w hk with ⟨ho, hv, hm⟩ | ⟨ho, _⟩ | ⟨kw', ho, hv⟩
    · rw [ho] at he; exact Or.inr (Or.inl ⟨he, hv, hm⟩)
    · rw [ho] at he; exact Or.inl ⟨_, he⟩
    · rw [ho] at he; exact Or.inr (Or.inr ⟨u, kw', he, hv⟩)
  have put : ∀ {A B C D E' : Prop}, (A ∨ D ∨ E') → (A ∨ B ∨ C ∨ D ∨ E') := by
    intro A B C D E' h; rcases h with h | h | h
    · exact Or.inl h
    · exact Or.inr (Or.inr (Or.inr (Or.inl h)))
    · exact Or.inr (Or.inr (Or.inr (Or.inr h)))
  cases hgv : s.given with
  | some t =>
    have hc : chooseTarget s = .ok (t, none) := by unfold chooseTarget; rw [hgv]
    cases t with
    | handle h =>
      exact Or.inr (Or.inl ⟨h, by unfold enterScope; rw [hc], Or.inl rfl⟩)
    | uris u => exact put (hopen u none (Or.inl rfl) hc)
    | nothing => exact Or.inr (Or.inr (Or.inl (by unfold enterScope; rw [hc])))
  | none =>
    cases hd : s.driver with
    | none => exact Or.inl ⟨.valueError, by unfold enterScope chooseTarget; rw [hgv, hd]⟩
    | some rd =>
      cases ho : rd.opened with
      | some h =>
        have hc : chooseTarget s = .ok (.handle h, some rd) := by unfold chooseTarget; rw [hgv, hd]; simp only [ho]
        exact Or.inr (Or.inl ⟨h, by unfold enterScope; rw [hc], Or.inr ⟨rd, rfl, ho⟩⟩)
      | none =>
        cases hu : rd.uri with
        | some u =>
          have hc : chooseTarget s = .ok (.uris u, some rd) := by
            unfold chooseTarget; rw [hgv, hd]; simp only [ho, hu]
          exact put (hopen u (some rd) (Or.inr ⟨rd, rfl, hd⟩) hc)
        | none =>
          have hc : chooseTarget s = .ok (.nothing, some rd) := by
            unfold chooseTarget; rw [hgv, hd]; simp only [ho, hu]
          exact Or.inr (Or.inr (Or.inl (by unfold enterScope; rw [hc])))

/-- Leaving a scope: close what was opened. -/
def leave (E : Libs) (s : Scope) (h : Option Handle) (shouldClose : Bool) (x : World × Option PyErr) : World × Option PyErr :=
  match shouldClose, h with
  | true, some h =>
    match closeFile E s.mode h x.1 with
    | (w3, some e) => (w3, some e)
    | (w3, none) => (w3, x.2)
  | _, _ => (x.1, x.2)

theorem run_scope (E : Libs) (s : Scope) (body k : Prog) (cur : Option Handle) (w w1 : World) (h : Option Handle) (c : Bool)
    (he : enterScope E s w = (w1, .ok (h, c))) :
    run E (.scope s body k) cur w =
      match (leave E s h c (run E body h w1)).2 with
      | some e => ((leave E s h c (run E body h w1)).1, some e)
      | none => run E k cur (leave E s h c (run E body h w1)).1 := by
  rw [run, he]
  rfl

theorem run_clean (E : Libs) (p : Prog) : ∀ (cur : Option Handle) (w : World), NoGroups p → GivenOpen w.opens p →
    (∀ i ∈ w.opens, i < w.next) →
    (∀ h, cur = some h → h.id ∈ w.opens ∨ (E.vector = true ∧ h.group = ["iterator"])) →
    ∃ new, (run E p cur w).1.log = w.log ++ new ∧ (run E p cur w).1.opens = w.opens ∧
      Clean E w.opens w.next (run E p cur w).1.next new := by
  induction p with
  | done => intro cur w _ _ _ _; exact ⟨[], by simp [run], rfl, Clean.nil _ _ _⟩
  | fail e => intro cur w _ _ _ _; exact ⟨[], by simp [run], rfl, Clean.nil _ _ _⟩
  | use k ih =>
    intro cur w hn hg hw hc
    cases cur with
    | none => exact ⟨[], by simp [run], rfl, Clean.nil _ _ _⟩
    | some h =>
      obtain ⟨new, h1, h2, h3⟩ := ih (some h) { w with log := w.log ++ [.used h] } hn hg hw hc
      refine ⟨[.used h] ++ new, ?_, h2, ?_⟩
      · show (run E k (some h) { w with log := w.log ++ [.used h] }).1.log = _
        rw [h1]; simp
      · exact (Clean.used E w.opens w.next h (hc h rfl)).join h3 hw
  | scope s body k ih1 ih2 =>
    intro cur w hn hg hw hc
    obtain ⟨n1, n2, n3, n4⟩ := hn
    obtain ⟨g1, g2, g3, g4⟩ := hg
    -- after the body and leaving the scope: the same files are open
    have finish : ∀ (w1 : World) (h : Option Handle) (c : Bool) (a : List Ev), enterScope E s w = (w1, .ok (h, c)) →
        (leave E s h c (run E body h w1)).1.log = w.log ++ a → (leave E s h c (run E body h w1)).1.opens = w.opens →
        Clean E w.opens w.next (leave E s h c (run E body h w1)).1.next a →
        ∃ new, (run E (.scope s body k) cur w).1.log = w.log ++ new ∧ (run E (.scope s body k) cur w).1.opens = w.opens ∧
          Clean E w.opens w.next (run E (.scope s body k) cur w).1.next new := by
      intro w1 h c a he hlog hop hcl
      rw [run_scope E s body k cur w w1 h c he]
      cases (leave E s h c (run E body h w1)).2 with
      | some e => exact ⟨a, hlog, hop, hcl⟩
      | none =>
        simp only
        generalize (leave E s h c (run E body h w1)).1 = w3 at hlog hop hcl
        obtain ⟨b, h1, h2, h3⟩ := ih2 cur w3 n4 (by rw [hop]; exact g4)
          (by rw [hop]; intro i hi; exact Nat.lt_of_lt_of_le (hw i hi) hcl.le) (by rw [hop]; exact hc)
        rw [hop] at h2 h3
        exact ⟨a ++ b, by rw [h1, hlog, List.append_assoc], h2, hcl.join h3 hw⟩
    have plain : ∀ (h : Option Handle), enterScope E s w = (w, .ok (h, false)) →
        (∀ x, h = some x → x.id ∈ w.opens ∨ (E.vector = true ∧ x.group = ["iterator"])) →
        ∃ new, (run E (.scope s body k) cur w).1.log = w.log ++ new ∧ (run E (.scope s body k) cur w).1.opens = w.opens ∧
          Clean E w.opens w.next (run E (.scope s body k) cur w).1.next new := by
      intro h he hx
      obtain ⟨a, h1, h2, h3⟩ := ih1 h w n3 g3 hw hx
      exact finish w h false a he h1 h2 h3
    rcases enterScope_cases E s w n1 n2 with ⟨e, he⟩ | ⟨h, he, hsrc⟩ | he | ⟨he, hv, hm⟩ | ⟨u, kw', he, hv⟩
    · refine ⟨[], ?_, ?_, ?_⟩ <;> simp only [run, he]
      · simp
      · exact Clean.nil _ _ _
    · refine plain (some h) he ?_
      intro x hx
      cases hx
      rcases hsrc with hs | ⟨rd, hd, ho⟩
      · exact Or.inl (g1 h hs)
      · exact Or.inl (g2 rd hd h ho)
    · exact plain none he (by simp)
    · obtain ⟨a, h1, h2, h3⟩ := ih1 (some ⟨0, ["iterator"]⟩) w n3 g3 hw (by
        intro x hx; cases hx; exact Or.inr ⟨hv, rfl⟩)
      have hl : leave E s (some ⟨0, ["iterator"]⟩) true (run E body (some ⟨0, ["iterator"]⟩) w) =
          run E body (some ⟨0, ["iterator"]⟩) w := by
        simp only [leave, closeFile, hv, hm, beq_self_eq_true, Bool.and_self, if_true]
      refine finish w _ true a he ?_ ?_ ?_ <;> rw [hl]
      · exact h1
      · exact h2
      · exact h3
    · obtain ⟨a, h1, h2, h3⟩ := ih1 (some ⟨w.next, []⟩) ⟨w.next :: w.opens, w.next + 1, w.log ++ [.opened w.next u s.mode kw']⟩ n3
        (GivenOpen.mono body _ _ (fun i hi => List.mem_cons_of_mem _ hi) g3)
        (by
          intro i hi
          rcases List.mem_cons.1 hi with rfl | hi
          · exact Nat.lt_succ_self _
          · exact Nat.lt_succ_of_lt (hw i hi))
        (by intro x hx; cases hx; exact Or.inl (by simp))
      generalize hr : run E body (some ⟨w.next, []⟩) ⟨w.next :: w.opens, w.next + 1, w.log ++ [.opened w.next u s.mode kw']⟩ = r at h1 h2 h3
      have hl : (leave E s (some ⟨w.next, []⟩) true r).1 = ⟨r.1.opens.erase w.next, r.1.next, r.1.log ++ [.closed w.next]⟩ := by
        simp only [leave, closeFile, hv, Bool.false_eq_true, if_false, if_true]
      refine finish _ _ true ([.opened w.next u s.mode kw'] ++ a ++ [.closed w.next]) he ?_ ?_ ?_ <;> rw [hr, hl]
      · simp only; rw [h1]; simp
      · simp only; rw [h2]; simp
      · exact Clean.wrap u s.mode kw' h3 hw
  | attempt body k ih1 ih2 =>
    intro cur w hn hg hw hc
    obtain ⟨a, h1, h2, h3⟩ := ih1 cur w hn.1 hg.1 hw hc
    have e : run E (.attempt body k) cur w = run E k cur (run E body cur w).1 := rfl
    rw [e]
    generalize (run E body cur w).1 = w1 at h1 h2 h3
    obtain ⟨b, k1, k2, k3⟩ := ih2 cur w1 hn.2 (by rw [h2]; exact hg.2)
      (by rw [h2]; intro i hi; exact Nat.lt_of_lt_of_le (hw i hi) h3.le) (by rw [h2]; exact hc)
    rw [h2] at k2 k3
    exact ⟨a ++ b, by rw [k1, h1, List.append_assoc], k2, h3.join k3 hw⟩

theorem run_raised (E : Libs) (p : Prog) (hE : ∀ u m, E.canOpen u m = true) :
    ∀ (cur : Option Handle) (w : World), NoGroups p → HasSource p → cur ≠ none → (run E p cur w).2 = raisedBy p := by
  induction p with
  | done => intro _ _ _ _ _; rfl
  | fail e => intro _ _ _ _ _; rfl
  | use k ih =>
    intro cur w hn hs hc
    cases cur with
    | none => exact absurd rfl hc
    | some h => exact ih (some h) _ hn hs hc
  | scope s body k ih1 ih2 =>
    intro cur w hn hs hc
    obtain ⟨n1, n2, n3, n4⟩ := hn
    obtain ⟨s1, s2, s3⟩ := hs
    have fin : ∀ (w1 : World) (h : Option Handle) (c : Bool), enterScope E s w = (w1, .ok (h, c)) → h ≠ none →
        (leave E s h c (run E body h w1)).2 = (run E body h w1).2 →
        (run E (.scope s body k) cur w).2 = raisedBy (.scope s body k) := by
      intro w1 h c he hh hl
      rw [run_scope E s body k cur w w1 h c he, hl, ih1 h w1 n3 s2 hh]
      simp only [raisedBy]
      cases raisedBy body with
      | some e => rfl
      | none => exact ih2 cur _ n4 s3 hc
    rcases enterScope_cases E s w n1 n2 with ⟨e, he⟩ | ⟨h, he, hsrc⟩ | he | ⟨he, hv, hm⟩ | ⟨u, kw', he, hv⟩
    · exfalso
      -- every scope has a source that can be opened
      have hne : ∀ u rd, chooseTarget s = .ok (.uris u, rd) → False := by
        intro u rd hc'
        have : enterScope E s w = (match openFile E u s.mode (effective s rd) w with
            | (w', .error e) => (w', .error e)
            | (w', .ok h) => (w', .ok (some h, true))) := by
          unfold enterScope; rw [hc']; rfl
        have hk : (effective s rd).lookup "group_indexing" = none := by
          apply lookup_absent
          intro p hp
          have hrd : rd = none ∨ ∃ r, rd = some r ∧ s.driver = some r := by
            unfold chooseTarget at hc'
            cases hgv : s.given with
            | some t => rw [hgv] at hc'; simp only at hc'; cases hc'; exact Or.inl rfl
            | none =>
              rw [hgv] at hc'
              cases hd : s.driver with
              | none => rw [hd] at hc'; simp at hc'
              | some r =>
                rw [hd] at hc'
                simp only at hc'
                cases ho : r.opened with
                | some x => simp only [ho] at hc'; cases hc'
                | none =>
                  cases hu : r.uri with
                  | some y => simp only [ho, hu] at hc'; cases hc'; exact Or.inr ⟨r, rfl, rfl⟩
                  | none => simp only [ho, hu] at hc'; cases hc'
          rcases hrd with rfl | ⟨r, rfl, hr⟩
          · exact n1 p hp
          · cases hk : r.kw with
            | none => simp only [effective, hk] at hp; exact n1 p hp
            | some k' =>
              simp only [effective, hk] at hp
              rcases kwUpdate_keys k' s.kw p hp with ⟨y, hy, e⟩ | ⟨y, hy, e⟩
              · rw [← e]; exact n1 y hy
              · rw [← e]; exact n2 r hr k' hk y hy
        rcases openFile_cases E u s.mode (effective s rd) w hk with ⟨ho, _⟩ | ⟨_, hno⟩ | ⟨kw', ho, _⟩
        · rw [ho, he] at this; cases this
        · rw [hE] at hno; cases hno
        · rw [ho, he] at this; have := congrArg Prod.snd this; cases this
      rcases s1 with ⟨h, hg⟩ | ⟨u, hg⟩ | ⟨hg, rd, hd, hs⟩
      · have hc' : chooseTarget s = .ok (.handle h, none) := by unfold chooseTarget; rw [hg]
        unfold enterScope at he
        rw [hc'] at he
        cases he
      · exact hne u none (by unfold chooseTarget; rw [hg])
      · cases ho : rd.opened with
        | some h =>
          have hc' : chooseTarget s = .ok (.handle h, some rd) := by unfold chooseTarget; rw [hg, hd]; simp only [ho]
          unfold enterScope at he
          rw [hc'] at he
          cases he
        | none =>
          cases hu : rd.uri with
          | some u => exact hne u (some rd) (by unfold chooseTarget; rw [hg, hd]; simp only [ho, hu])
          | none => rcases hs with hs | hs
                    · exact hs ho
                    · exact hs hu
    · exact fin w (some h) false he (by simp) rfl
    · exfalso
      unfold enterScope at he
      rcases s1 with ⟨h, hg⟩ | ⟨u, hg⟩ | ⟨hg, rd, hd, hs⟩
      · have hc' : chooseTarget s = .ok (.handle h, none) := by unfold chooseTarget; rw [hg]
        rw [hc'] at he; cases he
      · have hc' : chooseTarget s = .ok (.uris u, none) := by unfold chooseTarget; rw [hg]
        rw [hc'] at he
        simp only at he
        split at he <;> cases he
      · cases ho : rd.opened with
        | some h =>
          have hc' : chooseTarget s = .ok (.handle h, some rd) := by unfold chooseTarget; rw [hg, hd]; simp only [ho]
          rw [hc'] at he
          cases he
        | none =>
          cases hu : rd.uri with
          | some u =>
            have hc' : chooseTarget s = .ok (.uris u, some rd) := by unfold chooseTarget; rw [hg, hd]; simp only [ho, hu]
            rw [hc'] at he
            simp only at he
            split at he <;> cases he
          | none => rcases hs with hs | hs
                    · exact hs ho
                    · exact hs hu
    · refine fin w _ true he (by simp) ?_
      simp only [leave, closeFile, hv, hm, beq_self_eq_true, Bool.and_self, if_true]
    · refine fin _ _ true he (by simp) ?_
      simp only [leave, closeFile, hv, Bool.false_eq_true, if_false, if_true]
  | attempt body k ih1 ih2 =>
    intro cur w hn hs hc
    exact ih2 cur _ hn.2 hs.2 hc

end Ocgis.Proofs.FileScope
