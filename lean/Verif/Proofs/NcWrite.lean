import Verif.Spec.NcWrite
/-!
# Lemmas
-/
namespace Ocgis.Props
open Ocgis Ocgis.NcWrite Ocgis.Spec
open Ocgis.Array (Arr)

/-- Operations one after another. -/
def runOps {α : Type} (cfg : Cfg α) : Option (NcFile α) → List (Op α) → Res (Option (NcFile α))
  | file, [] => .ok file
  | file, op :: ops =>
    match effect cfg file op with
    | .error e => .error e
    | .ok file => runOps cfg file ops

theorem runOps_append {α : Type} (cfg : Cfg α) (xs ys : List (Op α)) : ∀ file,
    runOps cfg file (xs ++ ys) = match runOps cfg file xs with
      | .error e => .error e
      | .ok f => runOps cfg f ys := by
  induction xs with
  | nil => intro file; rfl
  | cons x xs ih =>
    intro file
    rw [List.cons_append, runOps, runOps]
    cases effect cfg file x with
    | error e => rfl
    | ok f => exact ih f

/-- A turn: whose it is and what is done. -/
abbrev Phase (α : Type) := Nat × List (Op α)

/-- What a rank does in the turns. -/
def progOf {α : Type} (me : Nat) (phases : List (Phase α)) : List (Op α) :=
  phases.flatMap fun ph => (if me = ph.1 then ph.2 else []) ++ [.barrier]

theorem progOf_cons {α : Type} (me : Nat) (ph : Phase α) (phases : List (Phase α)) :
    progOf me (ph :: phases) = (if me = ph.1 then ph.2 else []) ++ .barrier :: progOf me phases := by
  simp [progOf, List.flatMap_cons]

/-- A turn opens the file at most once and closes it. -/
structure Neat {α : Type} (n : Nat) (ph : Phase α) : Prop where
  rank : ph.1 < n
  free : ∀ op ∈ ph.2, ∀ r rest, op :: rest ≠ Op.barrier :: r
  once : ∀ d w, ph.2 = d ++ w → (d.foldl (holders ph.1) []).length ≤ 1
  closed : ph.2.foldl (holders ph.1) [] = []

/-- Where an execution stands. -/
structure At {α : Type} (cfg : Cfg α) (n : Nat) (file : Option (NcFile α)) (all : List (Op α)) (s : State α)
    (past : List (Op α)) (r : Nat) (d w : List (Op α)) (rest : List (Phase α)) : Prop where
  len : s.progs.length = n
  progs : ∀ i, i < n → s.progs[i]? = some ((if i = r then w else []) ++ .barrier :: progOf i rest)
  neat : Neat n (r, d ++ w)
  later : ∀ ph ∈ rest, Neat n ph
  all : all = past ++ d ++ w ++ rest.flatMap Prod.snd
  file : runOps cfg file (past ++ d) = .ok s.file
  quiet : s.raised = []
  opened : s.opened = d.foldl (holders r) []

/-- An execution is in a turn or at its end. -/
def Invariant {α : Type} (cfg : Cfg α) (n : Nat) (file : Option (NcFile α)) (all : List (Op α)) (s : State α) : Prop :=
  (∃ past r d w rest, At cfg n file all s past r d w rest) ∨
  (s.progs.length = n ∧ Finished s ∧ runOps cfg file all = .ok s.file ∧ s.raised = [] ∧ s.opened = [])

theorem sum_set_lt (l : List Nat) : ∀ (i a b : Nat), l[i]? = some a → b < a → (l.set i b).sum < l.sum := by
  induction l with
  | nil => intro i a b h; simp at h
  | cons x l ih =>
    intro i a b h hab
    cases i with
    | zero => simp at h; subst h; simp; omega
    | succ i =>
      have := ih i a b (by simpa using h) hab
      simp only [List.set_cons_succ, List.sum_cons]
      omega

/-- Every step leaves less to do. -/
theorem remaining_step {α : Type} (cfg : Cfg α) (s t : State α) (hst : Step cfg s t) : remaining t < remaining s := by
  have key : ∀ i op rest (w : List (Op α)), s.progs[i]? = some (op :: rest) → w.length ≤ rest.length →
      ((s.progs.set i w).map List.length).sum < (s.progs.map List.length).sum := by
    intro i op rest w h hw
    rw [List.map_set]
    exact sum_set_lt _ i (rest.length + 1) _ (by rw [List.getElem?_map, h]; rfl) (by omega)
  cases hst with
  | run i op rest file h1 h2 h3 => exact key i op rest rest h1 (Nat.le_refl _)
  | fail i op rest e h1 h2 h3 => exact key i op rest [] h1 (Nat.zero_le _)
  | sync h1 h2 =>
    have : ∀ (l : List (List (Op α))), l ≠ [] → (∀ p ∈ l, ∃ rest, p = .barrier :: rest) →
        ((l.map List.tail).map List.length).sum < (l.map List.length).sum := by
      intro l
      induction l with
      | nil => intro h; exact absurd rfl h
      | cons p l ih =>
        intro _ h
        obtain ⟨rest, hp⟩ := h p List.mem_cons_self
        subst hp
        simp only [List.map_cons, List.tail_cons, List.sum_cons, List.length_cons]
        cases l with
        | nil => simp
        | cons q l =>
          have := ih (by simp) (fun p hp => h p (List.mem_cons_of_mem _ hp))
          omega
    exact this s.progs h1 h2

theorem at_next {α : Type} {cfg : Cfg α} {n : Nat} {file : Option (NcFile α)} {all : List (Op α)} {s : State α}
    {past : List (Op α)} {r : Nat} {d w : List (Op α)} {rest : List (Phase α)} (h : At cfg n file all s past r d w rest)
    {i : Nat} {op : Op α} {more : List (Op α)} (hp : s.progs[i]? = some (op :: more)) (hb : ∀ x, op :: more ≠ .barrier :: x) :
    i = r ∧ ∃ w', w = op :: w' ∧ more = w' ++ .barrier :: progOf i rest := by
  have hi : i < n := by rw [← h.len]; exact (List.getElem?_eq_some_iff.1 hp).1
  have := h.progs i hi
  rw [hp] at this
  injection this with this
  by_cases hir : i = r
  · refine ⟨hir, ?_⟩
    rw [if_pos hir] at this
    cases w with
    | nil => exact absurd this (hb _)
    | cons x w =>
      injection this with h1 h2
      exact ⟨w, by rw [h1], h2⟩
  · rw [if_neg hir] at this
    exact absurd this (hb _)

theorem invariant_step {α : Type} (cfg : Cfg α) (n : Nat) (file : Option (NcFile α)) (all : List (Op α))
    (f : Option (NcFile α)) (hok : runOps cfg file all = .ok f) (s t : State α) (h : Invariant cfg n file all s)
    (hst : Step cfg s t) : Invariant cfg n file all t := by
  rcases h with ⟨past, r, d, w, rest, h⟩ | ⟨hl, hf, h1, h2, h3⟩
  · cases hst with
    | run i op more file' hp hb he =>
      obtain ⟨hir, w', hw, hm⟩ := at_next h hp hb
      subst hir; subst hw; subst hm
      refine .inl ⟨past, i, d ++ [op], w', rest, ?_, ?_, ?_, h.later, ?_, ?_, h.quiet, ?_⟩
      · simp only [List.length_set]; exact h.len
      · intro j hj
        simp only
        by_cases hji : j = i
        · subst hji
          rw [if_pos rfl, List.getElem?_set_self (by rw [h.len]; exact hj)]
        · rw [if_neg hji, List.getElem?_set_ne (fun e => hji e.symm), h.progs j hj, if_neg hji]
      · have := h.neat
        rw [show d ++ op :: w' = (d ++ [op]) ++ w' by simp] at this
        exact this
      · rw [h.all]; simp
      · rw [← List.append_assoc, runOps_append, h.file]
        simp only [runOps, he]
      · simp only [List.foldl_append, List.foldl_cons, List.foldl_nil, h.opened]
    | fail i op more e hp hb he =>
      obtain ⟨hir, w', hw, hm⟩ := at_next h hp hb
      subst hir; subst hw; subst hm
      have := h.all
      rw [this, show past ++ d ++ op :: w' ++ rest.flatMap Prod.snd = (past ++ d) ++ (op :: (w' ++ rest.flatMap Prod.snd)) by simp,
        runOps_append, h.file] at hok
      simp only [runOps, he] at hok
      cases hok
    | sync h1 h2 =>
      have hw : w = [] := by
        have hr := h.progs r h.neat.rank
        obtain ⟨x, hx⟩ := h2 _ (List.mem_of_getElem? hr)
        rw [if_pos rfl] at hx
        cases w with
        | nil => rfl
        | cons op w =>
          exact absurd hx (h.neat.free op (by simp) _ _)
      subst hw
      have hpr : ∀ i, i < n → s.progs[i]? = some (.barrier :: progOf i rest) := by
        intro i hi
        rw [h.progs i hi]
        split <;> rfl
      cases rest with
      | nil =>
        refine .inr ⟨by simp only [List.length_map]; exact h.len, ?_, ?_, h.quiet, ?_⟩
        · intro p hp
          obtain ⟨q, hq, rfl⟩ := List.mem_map.1 hp
          obtain ⟨i, hi⟩ := List.getElem?_of_mem hq
          have := hpr i (by rw [← h.len]; exact (List.getElem?_eq_some_iff.1 hi).1)
          rw [hi] at this
          injection this with this
          subst this
          rfl
        · rw [h.all]
          simpa using h.file
        · simp only [h.opened]
          have := h.neat.closed
          simpa using this
      | cons ph rest =>
        refine .inl ⟨past ++ d, ph.1, [], ph.2, rest, by simp only [List.length_map]; exact h.len, ?_,
          h.later ph List.mem_cons_self, fun q hq => h.later q (List.mem_cons_of_mem _ hq), ?_, ?_, h.quiet, ?_⟩
        · intro i hi
          simp only [List.getElem?_map, hpr i hi, Option.map_some, List.tail_cons]
          rw [progOf_cons]
        · rw [h.all]; simp
        · rw [List.append_nil]; exact h.file
        · simp only [h.opened, List.foldl_nil]
          have := h.neat.closed
          simpa using this
  · cases hst with
    | run i op more file' hp hb he => exact absurd (hf _ (List.mem_of_getElem? hp)) (by simp)
    | fail i op more e hp hb he => exact absurd (hf _ (List.mem_of_getElem? hp)) (by simp)
    | sync g1 g2 =>
      cases hp : s.progs with
      | nil => exact absurd hp g1
      | cons p ps =>
        obtain ⟨x, hx⟩ := g2 p (by rw [hp]; exact List.mem_cons_self)
        have := hf p (by rw [hp]; exact List.mem_cons_self)
        rw [hx] at this
        cases this

/-- Nothing blocks an execution before its end. -/
theorem invariant_progress {α : Type} (cfg : Cfg α) (n : Nat) (hn : 0 < n) (file : Option (NcFile α)) (all : List (Op α))
    (f : Option (NcFile α)) (hok : runOps cfg file all = .ok f) (s : State α) (h : Invariant cfg n file all s)
    (hnf : ¬ Finished s) : ∃ t, Step cfg s t := by
  rcases h with ⟨past, r, d, w, rest, h⟩ | ⟨hl, hf, _⟩
  · cases w with
    | nil =>
      refine ⟨_, Step.sync s ?_ ?_⟩
      · intro hnil
        have := h.len
        rw [hnil] at this
        simp at this
        omega
      · intro p hp
        obtain ⟨i, hi⟩ := List.getElem?_of_mem hp
        have := h.progs i (by rw [← h.len]; exact (List.getElem?_eq_some_iff.1 hi).1)
        rw [hi] at this
        injection this with this
        refine ⟨progOf i rest, ?_⟩
        rw [this]
        split <;> rfl
    | cons op w =>
      have hp := h.progs r h.neat.rank
      rw [if_pos rfl, List.cons_append] at hp
      have hb := h.neat.free op (by simp)
      have := h.all
      rw [this, show past ++ d ++ op :: w ++ rest.flatMap Prod.snd = (past ++ d) ++ (op :: (w ++ rest.flatMap Prod.snd)) by simp,
        runOps_append, h.file] at hok
      simp only [runOps] at hok
      cases he : effect cfg s.file op with
      | error e => rw [he] at hok; cases hok
      | ok file' => exact ⟨_, Step.run s r op _ file' hp (fun x => hb x _) he⟩
  · exact absurd hf hnf

/-- The turns of a write. -/
def phases {α : Type} (colls : List (Coll α)) : List (Phase α) :=
  (writeModes colls.length).flatMap fun mode => colls.zipIdx.map fun c =>
    (c.2, if mode = .template ∧ c.2 ≠ 0 then [] else turn mode c.1)

theorem turn_neat {α : Type} (n i : Nat) (hi : i < n) (mode : Mode) (c : Coll α) : Neat n (i, turn mode c) := by
  have hmid : ∀ (ps : List (Piece α)) (o : List Nat), (ps.map (Op.write mode)).foldl (holders i) o = o := by
    intro ps
    induction ps with
    | nil => intro o; rfl
    | cons p ps ih => intro o; exact ih o
  have hpre : ∀ (ps : List (Piece α)) (d w : List (Op α)), ps.map (Op.write mode) ++ [.close] = d ++ w →
      (d.foldl (holders i) [i]).length ≤ 1 := by
    intro ps
    induction ps with
    | nil =>
      intro d w h
      cases d with
      | nil => simp
      | cons x d =>
        simp only [List.map_nil, List.nil_append, List.cons_append, List.cons.injEq] at h
        obtain ⟨rfl, h⟩ := h
        have : d = [] := by
          cases d with
          | nil => rfl
          | cons => cases h
        subst this
        simp [holders]
    | cons p ps ih =>
      intro d w h
      cases d with
      | nil => simp
      | cons x d =>
        simp only [List.map_cons, List.cons_append, List.cons.injEq] at h
        obtain ⟨rfl, h⟩ := h
        exact ih d w h
  refine ⟨hi, ?_, ?_, ?_⟩
  · intro op hop r rest he
    injection he with he _
    subst he
    unfold turn at hop
    simp at hop
  · intro d w h
    cases d with
    | nil => simp
    | cons x d =>
      simp only [turn, List.cons_append, List.cons.injEq] at h
      obtain ⟨rfl, h⟩ := h
      exact hpre _ d w h
  · simp only [turn, List.foldl_append, List.foldl_cons, List.cons_append, holders, hmid, List.foldl_nil]
    simp

theorem nothing_neat {α : Type} (n i : Nat) (hi : i < n) : Neat n ((i, []) : Phase α) :=
  ⟨hi, by simp, by intro d w h; have : d = [] := by (cases d with | nil => rfl | cons => cases h)
                   subst this; simp, rfl⟩

theorem phases_neat {α : Type} (colls : List (Coll α)) : ∀ ph ∈ phases colls, Neat colls.length ph := by
  intro ph hph
  obtain ⟨mode, -, h⟩ := List.mem_flatMap.1 hph
  obtain ⟨⟨c, i⟩, hc, rfl⟩ := List.mem_map.1 h
  have hi : i < colls.length := by
    have := List.mem_zipIdx hc
    omega
  simp only
  split
  · exact nothing_neat _ _ hi
  · exact turn_neat _ _ hi _ _

theorem flatMap_same {α β : Type _} (l : List α) (f g : α → List β) (h : ∀ x ∈ l, f x = g x) : l.flatMap f = l.flatMap g := by
  induction l with
  | nil => rfl
  | cons x l ih =>
    rw [List.flatMap_cons, List.flatMap_cons, h x List.mem_cons_self, ih fun y hy => h y (List.mem_cons_of_mem _ hy)]

theorem program_phases {α : Type} (colls : List (Coll α)) (me : Nat) (c : Coll α) (hc : colls[me]? = some c) :
    program colls.length me c = progOf me (phases colls) := by
  unfold program progOf phases
  rw [List.flatMap_assoc]
  congr 1
  funext mode
  unfold loop
  rw [List.flatMap_map]
  have hz : List.range colls.length = colls.zipIdx.map Prod.snd := by
    rw [List.zipIdx_map_snd]
    simp [List.range_eq_range']
  rw [hz, List.flatMap_map]
  apply flatMap_same
  intro x hx
  obtain ⟨x, i⟩ := x
  simp only
  congr 1
  by_cases hm : mode = .template ∧ i ≠ 0
  · simp [hm]
  · simp only [if_neg hm]
    by_cases hmi : me = i
    · subst hmi
      have : x = c := by
        have := List.mem_zipIdx_iff_getElem?.1 hx
        rw [hc] at this
        injection this with this
        exact this.symm
      subst this
      rfl
    · simp [hmi]

theorem phases_ne_nil {α : Type} (colls : List (Coll α)) (h : colls ≠ []) : phases colls ≠ [] := by
  cases colls with
  | nil => exact absurd rfl h
  | cons c cs =>
    unfold phases writeModes
    split <;> simp

theorem invariant_start {α : Type} (cfg : Cfg α) (file : Option (NcFile α)) (colls : List (Coll α)) (h : colls ≠ []) :
    Invariant cfg colls.length file ((phases colls).flatMap Prod.snd) (NcWrite.start file colls) := by
  cases hp : phases colls with
  | nil => exact absurd hp (phases_ne_nil colls h)
  | cons ph rest =>
    have hneat := phases_neat colls
    rw [hp] at hneat
    refine .inl ⟨[], ph.1, [], ph.2, rest, ?_, ?_, hneat ph List.mem_cons_self, fun q hq => hneat q (List.mem_cons_of_mem _ hq),
      by simp, rfl, rfl, rfl⟩
    · simp [NcWrite.start]
    · intro i hi
      simp only [NcWrite.start, List.getElem?_zipWith, List.getElem?_range hi, List.getElem?_eq_getElem hi]
      rw [program_phases colls i colls[i] (List.getElem?_eq_getElem hi), hp, progOf_cons]

/-- What every execution is like. -/
theorem schedules {α : Type} (cfg : Cfg α) (file : Option (NcFile α)) (colls : List (Coll α)) (h : colls ≠ [])
    (f : Option (NcFile α)) (hok : runOps cfg file ((phases colls).flatMap Prod.snd) = .ok f) (t : State α)
    (ht : Steps cfg (NcWrite.start file colls) t) :
    t.raised = [] ∧ t.opened.length ≤ 1 ∧ (Finished t → t.file = f) ∧ (¬ Finished t → ∃ u, Step cfg t u) := by
  have hinv : Invariant cfg colls.length file ((phases colls).flatMap Prod.snd) t := by
    generalize hs : NcWrite.start file colls = s at ht
    induction ht with
    | refl => subst hs; exact invariant_start cfg file colls h
    | step h1 h2 ih => exact invariant_step cfg _ file _ f hok _ _ ih h2
  have hprog := invariant_progress cfg _ (List.length_pos_iff.2 h) file _ f hok t hinv
  rcases hinv with ⟨past, r, d, w, rest, hA⟩ | ⟨_, h1, h2, h3, h4⟩
  · refine ⟨hA.quiet, ?_, ?_, hprog⟩
    · rw [hA.opened]
      exact hA.neat.once d w rfl
    · intro hf
      have := hf _ (List.mem_of_getElem? (hA.progs r hA.neat.rank))
      simp at this
  · refine ⟨h3, by simp [h4], ?_, hprog⟩
    intro _
    rw [hok] at h2
    injection h2 with h2
    exact h2.symm

/-- Variables one after another. -/
def writeAll {α : Type} (cfg : Cfg α) (mode : Mode) : List (Piece α) → NcFile α → Res (NcFile α)
  | [], f => .ok f
  | p :: ps, f =>
    match writeVar cfg mode p f with
    | .error e => .error e
    | .ok f => writeAll cfg mode ps f

/-- The variables that are written. -/
def written {α : Type} (c : Coll α) : List (Piece α) := c.pieces.filter fun p => decide (p.kind ≠ .geometry)

theorem run_writes {α : Type} (cfg : Cfg α) (mode : Mode) (ps : List (Piece α)) : ∀ (f g : NcFile α),
    writeAll cfg mode ps f = .ok g → runOps cfg (some f) (ps.map (Op.write mode) ++ [.close]) = .ok (some g) := by
  induction ps with
  | nil => intro f g h; injection h with h; subst h; rfl
  | cons p ps ih =>
    intro f g h
    rw [writeAll] at h
    rw [List.map_cons, List.cons_append, runOps, effect]
    cases hw : writeVar cfg mode p f with
    | error e => rw [hw] at h; cases h
    | ok f' => rw [hw] at h; exact ih f' g h

theorem run_turn {α : Type} (cfg : Cfg α) (mode : Mode) (c : Coll α) (file : Option (NcFile α)) (f g : NcFile α)
    (hf : effect cfg file (.openFile mode c.attrs) = .ok (some f)) (h : writeAll cfg mode (written c) f = .ok g) :
    runOps cfg file (turn mode c) = .ok (some g) := by
  unfold turn
  rw [List.cons_append, runOps, hf]
  exact run_writes cfg mode _ f g h

/-- A file with the given variables, dimensions and data. -/
def fileOf {α : Type} (fv : Piece α → Option α) (attrs : List (String × String)) (dims : List (String × Option Nat))
    (e : String → Nat) (g : Piece α → List Nat → α) (Ws : List (Piece α)) : NcFile α :=
  ⟨attrs, dims, e, Ws.map fun W => (W.name, ⟨W.dims.map Dim.name, fv W, g W, W.attrs⟩)⟩

theorem lookup_fileOf {α : Type} (fv : Piece α → Option α) (g : Piece α → List Nat → α) (Ws : List (Piece α))
    (hn : (Ws.map Piece.name).Nodup) (W : Piece α) (hW : W ∈ Ws) :
    (Ws.map fun W => (W.name, (⟨W.dims.map Dim.name, fv W, g W, W.attrs⟩ : NcVar α))).lookup W.name =
      some ⟨W.dims.map Dim.name, fv W, g W, W.attrs⟩ := by
  induction Ws with
  | nil => cases hW
  | cons V Ws ih =>
    rw [List.map_cons, List.nodup_cons] at hn
    rw [List.map_cons, List.lookup_cons]
    rcases List.mem_cons.1 hW with rfl | hW
    · simp
    · have hne : W.name ≠ V.name := by
        intro he
        exact hn.1 (he ▸ List.mem_map_of_mem hW)
      rw [beq_eq_false_iff_ne.2 hne]
      exact ih hn.2 hW

/-- The dimensions as they are declared. -/
def decl (d : Dim) : String × Option Nat := (d.name, if d.size = none then none else some d.len.toNat)

theorem declared_whole {α : Type} (cfg : Cfg α) (hfix : cfg.toFixed = false) (ds : List Dim) :
    declared cfg .normal ds = ds.map decl := by
  induction ds with
  | nil => rfl
  | cons d ds ih =>
    rw [declared, if_neg (by simp [hfix]), ih, List.map_cons]
    congr 2
    unfold dimSize Dim.len
    cases d.size <;> simp

theorem declared_part {α : Type} (cfg : Cfg α) (hfix : cfg.toFixed = false) (Ds ds : List Dim) (h : List.Forall₂ DimPart Ds ds) :
    declared cfg .template ds = Ds.map decl := by
  induction h with
  | nil => rfl
  | @cons D d Ds ds h _ ih =>
    rw [declared, if_neg (by simp [hfix]), ih, List.map_cons]
    unfold decl dimSize
    rw [h.name, h.full]
    congr 2
    cases hd : d.size with
    | none => rw [if_pos (h.unlimited.1 hd)]
    | some n =>
      rw [if_neg]
      · simp
      · intro hD
        rw [h.unlimited.2 hD] at hd
        cases hd

/-- Looking up a declared dimension. -/
theorem lookup_declared (l : List (String × Option Nat)) : ∀ (acc : List (String × Option Nat)),
    (∀ x ∈ acc ++ l, ∀ y ∈ acc ++ l, x.1 = y.1 → x = y) → ∀ x ∈ acc ++ l, (l.foldl createDim acc).lookup x.1 = some x.2 := by
  induction l with
  | nil =>
    intro acc h x hx
    rw [List.append_nil] at h hx
    rw [List.foldl_nil]
    induction acc with
    | nil => cases hx
    | cons y acc ih =>
      rw [List.lookup_cons]
      by_cases he : x.1 = y.1
      · have := h x hx y List.mem_cons_self he
        subst this
        simp
      · rw [beq_eq_false_iff_ne.2 he]
        rcases List.mem_cons.1 hx with rfl | hx
        · exact absurd rfl he
        · exact ih (fun a ha b hb => h a (List.mem_cons_of_mem _ ha) b (List.mem_cons_of_mem _ hb)) hx
  | cons y l ih =>
    intro acc h x hx
    rw [List.foldl_cons]
    unfold createDim
    split
    · rename_i hc
      have hm : ∃ z ∈ acc, z.1 = y.1 := by
        simpa using hc
      obtain ⟨z, hz, hzy⟩ := hm
      have hzy' : z = y := h z (by simp [hz]) y (by simp) hzy
      subst hzy'
      refine ih acc (fun a ha b hb => h a ?_ b ?_) x ?_
      · simp at ha ⊢; grind
      · simp at hb ⊢; grind
      · simp at hx ⊢; grind
    · refine ih (acc ++ [y]) (fun a ha b hb => h a ?_ b ?_) x ?_
      · simp at ha ⊢; grind
      · simp at hb ⊢; grind
      · simp at hx ⊢; grind

/-- What a written cell holds. -/
def cell {α : Type} (dflt : α) (fv : Option α) (W : Piece α) (A : Arr α) (ix : List Nat) : α :=
  match W.mask with
  | none => A.elem ix
  | some M => if M ix then fv.getD dflt else A.elem ix

/-- A position on a rank. -/
theorem hasPos_block {Ds ds : List Dim} (h : List.Forall₂ DimPart Ds ds) : ∀ (ix : List Nat),
    (inBlock (ds.map fun d => d.boundsLocal.1.toNat) (ds.map fun d => d.len.toNat) ix = true ↔
      (ix.length = ds.length ∧
        ∀ (k i : Nat) d, ix[k]? = some i → ds[k]? = some d → d.boundsLocal.1 ≤ (i : Int) ∧ (i : Int) < d.boundsLocal.2)) ∧
    (inBlock (ds.map fun d => d.boundsLocal.1.toNat) (ds.map fun d => d.len.toNat) ix = true →
      PosIn (ds.map fun d => d.len.toNat) (ix.zipWith (· - ·) (ds.map fun d => d.boundsLocal.1.toNat)) ∧
      ds.zipWith (fun d i => d.boundsLocal.1.toNat + i) (ix.zipWith (· - ·) (ds.map fun d => d.boundsLocal.1.toNat)) = ix ∧
      PosIn (Ds.map fun d => d.len.toNat) ix) := by
  induction h with
  | nil =>
    intro ix
    cases ix with
    | nil => simp [inBlock, PosIn]
    | cons i ix => simp [inBlock]
  | @cons D d Ds ds h hs ih =>
    intro ix
    cases ix with
    | nil => simp [inBlock]
    | cons i ix =>
      obtain ⟨ih1, ih2⟩ := ih ix
      have hlen := h.len
      have hlow := h.low
      have hpos := h.pos
      have hhigh := h.high
      have harith : (d.boundsLocal.1.toNat ≤ i ∧ i < d.boundsLocal.1.toNat + d.len.toNat) ↔
          (d.boundsLocal.1 ≤ (i : Int) ∧ (i : Int) < d.boundsLocal.2) := by omega
      simp only [List.map_cons, inBlock, Bool.and_eq_true, decide_eq_true_eq]
      refine ⟨?_, ?_⟩
      · rw [harith, ih1]
        constructor
        · rintro ⟨h0, hl, hk⟩
          refine ⟨by simp [hl], ?_⟩
          intro k j e hj he
          cases k with
          | zero => simp at hj he; subst hj; subst he; exact h0
          | succ k => exact hk k j e hj he
        · rintro ⟨hl, hk⟩
          exact ⟨hk 0 i d rfl rfl, by simpa using hl, fun k j e hj he => hk (k + 1) j e hj he⟩
      · rintro ⟨h0, hb⟩
        obtain ⟨p1, p2, p3⟩ := ih2 hb
        refine ⟨⟨?_, ?_⟩, ?_, ⟨?_, ?_⟩⟩
        · simpa using p1.1
        · intro k j n hj hn
          cases k with
          | zero => simp at hj hn; omega
          | succ k => exact p1.2 k j n hj hn
        · simp only [List.zipWith_cons_cons, p2]
          congr 1
          omega
        · simpa using p3.1
        · intro k j n hj hn
          cases k with
          | zero => simp at hj hn; omega
          | succ k => exact p3.2 k j n hj hn

/-- A rank's part takes as many elements of the file as it has. -/
theorem taken_part {Ds ds : List Dim} (h : List.Forall₂ DimPart Ds ds) (dims : List (String × Option Nat))
    (hd : ∀ D ∈ Ds, dims.lookup D.name = some (decl D).2) :
    ((Ds.map Dim.name).zip ds).map (fun x => taken ((dims.lookup x.1).getD none) x.2) = ds.map fun d => d.len.toNat := by
  induction h with
  | nil => rfl
  | @cons D d Ds ds h hs ih =>
    simp only [List.map_cons, List.zip_cons_cons]
    rw [ih fun D hD => hd D (List.mem_cons_of_mem _ hD), hd D List.mem_cons_self]
    congr 1
    have hlen := h.len
    have hlow := h.low
    have hpos := h.pos
    have hhigh := h.high
    unfold decl taken
    simp only [Option.getD_some]
    by_cases hD : D.size = none
    · rw [if_pos hD]
      simp only
      omega
    · rw [if_neg hD]
      simp only
      omega

theorem foldl_max (l : List Nat) : ∀ (a : Nat), a ≤ l.foldl max a ∧ (∀ x ∈ l, x ≤ l.foldl max a) ∧
    (l.foldl max a = a ∨ l.foldl max a ∈ l) := by
  induction l with
  | nil => intro a; simp
  | cons x l ih =>
    intro a
    obtain ⟨h1, h2, h3⟩ := ih (max a x)
    rw [List.foldl_cons]
    refine ⟨by omega, ?_, ?_⟩
    · intro y hy
      rcases List.mem_cons.1 hy with rfl | hy
      · omega
      · exact h2 y hy
    · rcases h3 with h3 | h3
      · rw [h3]
        by_cases hax : a ≤ x
        · right; rw [Nat.max_eq_right hax]; exact List.mem_cons_self
        · left; omega
      · right; exact List.mem_cons_of_mem _ h3

/-- How far has been written. -/
theorem newExtent_spec {α : Type} (p : Piece α) (names : List String) (hn : names = p.dims.map Dim.name) (old : String → Nat) (n : String) :
    old n ≤ newExtent names p old n ∧ (∀ d ∈ p.dims, d.name = n → d.boundsLocal.2.toNat ≤ newExtent names p old n) ∧
    (newExtent names p old n = old n ∨ ∃ d ∈ p.dims, d.name = n ∧ newExtent names p old n = d.boundsLocal.2.toNat) := by
  subst hn
  have hz : (p.dims.map Dim.name).zip p.dims = p.dims.map fun d => (d.name, d) := by
    generalize p.dims = l
    induction l with
    | nil => rfl
    | cons d l ih => simp [ih]
  unfold newExtent
  rw [hz]
  obtain ⟨h1, h2, h3⟩ := foldl_max (((p.dims.map fun d => (d.name, d)).filterMap fun x => if x.1 = n then some x.2.boundsLocal.2.toNat else none)) (old n)
  refine ⟨h1, ?_, ?_⟩
  · intro d hd hdn
    apply h2
    rw [List.mem_filterMap]
    exact ⟨(d.name, d), List.mem_map_of_mem hd, by simp [hdn]⟩
  · rcases h3 with h3 | h3
    · exact .inl h3
    · right
      rw [List.mem_filterMap] at h3
      obtain ⟨x, hx, he⟩ := h3
      obtain ⟨d, hd, rfl⟩ := List.mem_map.1 hx
      simp only at he
      split at he
      · rename_i hdn
        injection he with he
        exact ⟨d, hd, hdn, he.symm⟩
      · cases he

/-- The variables' data after the parts in `P` have been written. -/
structure Filled {α : Type} (dflt : α) (fv : Piece α → Option α) (Ws P : List (Piece α)) (e : String → Nat) (g : Piece α → List Nat → α) :
    Prop where
  cells : ∀ W ∈ Ws, ∀ A, W.value = some A → W.kind ≠ .crs → ∀ p ∈ P, p.name = W.name → ∀ ix, HasPos p ix →
    g W ix = cell dflt (fv W) W A ix
  rest : ∀ W ∈ Ws, ∀ ix, (W.kind = .crs ∨ W.value = none ∨ ∀ p ∈ P, p.name = W.name → ¬ HasPos p ix) → g W ix = (fv W).getD dflt
  least : ∀ W ∈ Ws, W.kind ≠ .crs → W.value ≠ none → ∀ p ∈ P, p.name = W.name → ∀ d ∈ p.dims, d.boundsLocal.2.toNat ≤ e d.name
  most : ∀ n, e n = 0 ∨ ∃ W ∈ Ws, W.kind ≠ .crs ∧ W.value ≠ none ∧ ∃ D ∈ W.dims, D.name = n ∧ e n ≤ D.len.toNat

theorem same_names {Ds ds : List Dim} (h : List.Forall₂ DimPart Ds ds) : ds.map Dim.name = Ds.map Dim.name := by
  induction h with
  | nil => rfl
  | cons h _ ih => rw [List.map_cons, List.map_cons, ih, h.name]

theorem part_mem {Ds ds : List Dim} (h : List.Forall₂ DimPart Ds ds) : ∀ d ∈ ds, ∃ D ∈ Ds, DimPart D d := by
  induction h with
  | nil => intro d hd; cases hd
  | cons h _ ih =>
    intro d hd
    rcases List.mem_cons.1 hd with rfl | hd
    · exact ⟨_, List.mem_cons_self, h⟩
    · obtain ⟨D, h1, h2⟩ := ih d hd
      exact ⟨D, List.mem_cons_of_mem _ h1, h2⟩

theorem name_unique {α : Type} (Ws : List (Piece α)) (hn : (Ws.map Piece.name).Nodup) (V W : Piece α) (hV : V ∈ Ws) (hW : W ∈ Ws)
    (h : V.name = W.name) : V = W := by
  induction Ws with
  | nil => cases hV
  | cons X Ws ih =>
    rw [List.map_cons, List.nodup_cons] at hn
    rcases List.mem_cons.1 hV with hV1 | hV1 <;> rcases List.mem_cons.1 hW with hW1 | hW1
    · rw [hV1, hW1]
    · subst hV1
      exact absurd (h ▸ List.mem_map_of_mem hW1) hn.1
    · subst hW1
      exact absurd (h ▸ List.mem_map_of_mem hV1) hn.1
    · exact ih hn.2 hV1 hW1

/-- Writing a part. -/
theorem write_part {α : Type} (cfg : Cfg α) (hfo : cfg.fileOnly = false) (fv : Piece α → Option α) (attrs : List (String × String))
    (dims : List (String × Option Nat)) (e : String → Nat) (g : Piece α → List Nat → α) (Ws P : List (Piece α))
    (hn : (Ws.map Piece.name).Nodup) (W p : Piece α) (hW : W ∈ Ws) (hp : PartOf W p)
    (hd : ∀ D ∈ W.dims, dims.lookup D.name = some (decl D).2) (hF : Filled cfg.dflt fv Ws P e g) :
    ∃ e' g', writeData cfg p ⟨W.dims.map Dim.name, fv W, g W, W.attrs⟩ (fileOf fv attrs dims e g Ws) =
        .ok (fileOf fv attrs dims e' g' Ws) ∧ Filled cfg.dflt fv Ws (p :: P) e' g' := by
  unfold writeData
  by_cases hcrs : p.kind = .crs
  · rw [if_pos (by simp [hcrs])]
    have hcrs' : W.kind = .crs := hp.kind ▸ hcrs
    refine ⟨e, g, rfl, ?_, ?_, ?_, hF.most⟩
    · intro V hV A hA hk q hq hqn ix hix
      rcases List.mem_cons.1 hq with rfl | hq
      · have := name_unique Ws hn V W hV hW (hqn ▸ hp.name)
        subst this
        exact absurd hcrs' hk
      · exact hF.cells V hV A hA hk q hq hqn ix hix
    · intro V hV ix h
      refine hF.rest V hV ix ?_
      rcases h with h | h | h
      · exact .inl h
      · exact .inr (.inl h)
      · exact .inr (.inr fun q hq => h q (List.mem_cons_of_mem _ hq))
    · intro V hV hk hv q hq hqn d hdq
      rcases List.mem_cons.1 hq with rfl | hq
      · have := name_unique Ws hn V W hV hW (hqn ▸ hp.name)
        subst this
        exact absurd hcrs' hk
      · exact hF.least V hV hk hv q hq hqn d hdq
  · rw [if_neg (by simp [hcrs, hfo])]
    have hcrs' : W.kind ≠ .crs := hp.kind ▸ hcrs
    cases hv : p.value with
    | none =>
      have hv' := hp.noValue.1 hv
      refine ⟨e, g, rfl, ?_, ?_, ?_, hF.most⟩
      · intro V hV A hA hk q hq hqn ix hix
        rcases List.mem_cons.1 hq with rfl | hq
        · have := name_unique Ws hn V W hV hW (hqn ▸ hp.name)
          subst this
          rw [hv'] at hA; cases hA
        · exact hF.cells V hV A hA hk q hq hqn ix hix
      · intro V hV ix h
        refine hF.rest V hV ix ?_
        rcases h with h | h | h
        · exact .inl h
        · exact .inr (.inl h)
        · exact .inr (.inr fun q hq => h q (List.mem_cons_of_mem _ hq))
      · intro V hV hk hvv q hq hqn d hdq
        rcases List.mem_cons.1 hq with rfl | hq
        · have := name_unique Ws hn V W hV hW (hqn ▸ hp.name)
          subst this
          exact absurd hv' hvv
        · exact hF.least V hV hk hvv q hq hqn d hdq
    | some a =>
      obtain ⟨A, hA⟩ : ∃ A, W.value = some A := by
        cases hWv : W.value with
        | none => rw [hp.noValue.2 hWv] at hv; cases hv
        | some A => exact ⟨A, rfl⟩
      obtain ⟨hsh, hel⟩ := hp.value a A hv hA
      have htk : ((W.dims.map Dim.name).zip p.dims).map (fun x => taken ((dims.lookup x.1).getD none) x.2) = a.shape := by
        rw [hsh]; exact taken_part hp.dims dims hd
      simp only
      split
      · rename_i hne
        exact absurd htk hne
      let nv : NcVar α := ⟨W.dims.map Dim.name, fv W, g W, W.attrs⟩
      let g' : Piece α → List Nat → α := fun V => if V.name = p.name then (putBlock cfg.dflt nv p a).data else g V
      have hblock : ∀ ix, inBlock p.start a.shape ix = true ↔ HasPos p ix := by
        intro ix
        rw [hsh]
        exact (hasPos_block hp.dims ix).1
      have hput : ∀ ix, HasPos p ix → (putBlock cfg.dflt nv p a).data ix = cell cfg.dflt (fv W) W A ix := by
        intro ix hix
        have hb := (hblock ix).2 hix
        unfold putBlock
        simp only [hb, if_true]
        rw [hsh] at hb
        obtain ⟨i1, i2, -⟩ := (hasPos_block hp.dims ix).2 hb
        have hloc : shifted p (ix.zipWith (· - ·) p.start) = ix := i2
        have hin : PosIn p.shape (ix.zipWith (· - ·) p.start) := i1
        unfold stored cell
        cases hm : p.mask with
        | none =>
          rw [hp.noMask.1 hm]
          simp only
          rw [hel _ hin, hloc]
        | some m =>
          cases hM : W.mask with
          | none => rw [hp.noMask.2 hM] at hm; cases hm
          | some M =>
            simp only
            rw [hp.mask m M hm hM _ hin, hel _ hin, hloc]
      have hkeep : ∀ ix, ¬ HasPos p ix → (putBlock cfg.dflt nv p a).data ix = g W ix := by
        intro ix hix
        unfold putBlock
        simp only
        rw [if_neg (by rw [hblock]; exact hix)]
      have hW' : g' W = (putBlock cfg.dflt nv p a).data := by
        show (if W.name = p.name then _ else _) = _
        rw [if_pos hp.name.symm]
      have hother : ∀ V ∈ Ws, V ≠ W → g' V = g V := by
        intro V hV hne
        show (if V.name = p.name then _ else _) = _
        rw [if_neg]
        intro h
        exact hne (name_unique Ws hn V W hV hW (h.trans hp.name))
      refine ⟨newExtent (W.dims.map Dim.name) p e, g', ?_, ?_, ?_, ?_, ?_⟩
      · unfold fileOf
        congr 2
        rw [List.map_map]
        apply List.map_congr_left
        intro V hV
        simp only [Function.comp]
        by_cases hVp : V.name = p.name
        · have := name_unique Ws hn V W hV hW (hVp.trans hp.name)
          subst this
          rw [if_pos hVp, hW']
          rfl
        · rw [if_neg hVp]
          rw [hother V hV (fun h => hVp (by rw [h, hp.name]))]
      · intro V hV B hB hk q hq hqn ix hix
        by_cases hVW : V = W
        · subst hVW
          rw [hA] at hB
          injection hB with hB
          subst hB
          rw [hW']
          by_cases hpix : HasPos p ix
          · exact hput ix hpix
          · rw [hkeep ix hpix]
            rcases List.mem_cons.1 hq with rfl | hq
            · exact absurd hix hpix
            · exact hF.cells V hV A hA hk q hq hqn ix hix
        · rw [hother V hV hVW]
          rcases List.mem_cons.1 hq with rfl | hq
          · exact absurd (name_unique Ws hn V W hV hW (hqn ▸ hp.name)) hVW
          · exact hF.cells V hV B hB hk q hq hqn ix hix
      · intro V hV ix h
        by_cases hVW : V = W
        · subst hVW
          have hnp : ¬ HasPos p ix := by
            rcases h with h | h | h
            · exact absurd h hcrs'
            · rw [hA] at h; cases h
            · exact h p List.mem_cons_self hp.name
          rw [hW', hkeep ix hnp]
          refine hF.rest V hV ix ?_
          rcases h with h | h | h
          · exact .inl h
          · exact .inr (.inl h)
          · exact .inr (.inr fun q hq => h q (List.mem_cons_of_mem _ hq))
        · rw [hother V hV hVW]
          refine hF.rest V hV ix ?_
          rcases h with h | h | h
          · exact .inl h
          · exact .inr (.inl h)
          · exact .inr (.inr fun q hq => h q (List.mem_cons_of_mem _ hq))
      · intro V hV hk hvv q hq hqn d hdq
        obtain ⟨n1, n2, -⟩ := newExtent_spec p (W.dims.map Dim.name) (same_names hp.dims).symm e d.name
        rcases List.mem_cons.1 hq with rfl | hq
        · exact n2 d hdq rfl
        · exact Nat.le_trans (hF.least V hV hk hvv q hq hqn d hdq) n1
      · intro n
        obtain ⟨-, -, n3⟩ := newExtent_spec p (W.dims.map Dim.name) (same_names hp.dims).symm e n
        rcases n3 with n3 | ⟨d, hd1, hd2, hd3⟩
        · rw [n3]; exact hF.most n
        · right
          obtain ⟨D, hD, hDd⟩ := part_mem hp.dims d hd1
          refine ⟨W, hW, hcrs', by rw [hA]; simp, D, hD, by rw [← hDd.name, hd2], ?_⟩
          rw [hd3]
          have := hDd.high
          omega

/-- The parts of a rank, filled in. -/
theorem fill_all {α : Type} (cfg : Cfg α) (hfo : cfg.fileOnly = false) (fv : Piece α → Option α) (attrs : List (String × String))
    (dims : List (String × Option Nat)) (Ws : List (Piece α)) (hn : (Ws.map Piece.name).Nodup)
    (hd : ∀ W ∈ Ws, ∀ D ∈ W.dims, dims.lookup D.name = some (decl D).2) :
    ∀ (ps P : List (Piece α)) (e : String → Nat) (g : Piece α → List Nat → α), (∀ p ∈ ps, ∃ W ∈ Ws, PartOf W p) →
    Filled cfg.dflt fv Ws P e g →
    ∃ e' g', writeAll cfg .fill ps (fileOf fv attrs dims e g Ws) = .ok (fileOf fv attrs dims e' g' Ws) ∧
      Filled cfg.dflt fv Ws (ps.reverse ++ P) e' g' := by
  intro ps
  induction ps with
  | nil => intro P e g _ hF; exact ⟨e, g, rfl, hF⟩
  | cons p ps ih =>
    intro P e g hps hF
    obtain ⟨W, hW, hp⟩ := hps p List.mem_cons_self
    obtain ⟨e', g', h1, h2⟩ := write_part cfg hfo fv attrs dims e g Ws P hn W p hW hp (hd W hW) hF
    obtain ⟨e'', g'', h3, h4⟩ := ih (p :: P) e' g' (fun q hq => hps q (List.mem_cons_of_mem _ hq)) h2
    refine ⟨e'', g'', ?_, by simpa using h4⟩
    rw [writeAll, writeVar]
    have hlive : p.dims.any Dim.isEmpty = false := by
      rw [List.any_eq_false]
      intro d hd
      obtain ⟨D, -, hDd⟩ := part_mem hp.dims d hd
      rw [hDd.live]; simp
    rw [if_neg (by simp [hlive])]
    have hl : (fileOf fv attrs dims e g Ws).vars.lookup p.name = some ⟨W.dims.map Dim.name, fv W, g W, W.attrs⟩ := by
      rw [hp.name]
      exact lookup_fileOf fv g Ws hn W hW
    rw [hl]
    simp only [h1, h3]

theorem mem_indices (shape : List Nat) : ∀ ix, ix ∈ indices shape ↔ PosIn shape ix := by
  induction shape with
  | nil =>
    intro ix
    simp only [indices, List.mem_singleton, PosIn, List.length_nil, List.length_eq_zero_iff]
    constructor
    · rintro rfl; exact ⟨rfl, by simp⟩
    · rintro ⟨h, _⟩; exact h
  | cons n shape ih =>
    intro ix
    simp only [indices, List.mem_flatMap, List.mem_range, List.mem_map]
    constructor
    · rintro ⟨i, hi, jx, hj, rfl⟩
      have := (ih jx).1 hj
      refine ⟨by simp [this.1], ?_⟩
      intro k a b ha hb
      cases k with
      | zero => simp at ha hb; omega
      | succ k => exact this.2 k a b ha hb
    · intro h
      cases ix with
      | nil => cases h.1
      | cons i ix =>
        exact ⟨i, h.2 0 i n rfl rfl, ix, (ih ix).2 ⟨by simpa using h.1, fun k a b ha hb => h.2 (k + 1) a b ha hb⟩, rfl⟩

theorem hasMasked_iff {α : Type} (p : Piece α) : p.hasMasked = true ↔ ∃ m, p.mask = some m ∧ ∃ ix, PosIn p.shape ix ∧ m ix = true := by
  unfold Piece.hasMasked
  cases p.mask with
  | none => simp
  | some m =>
    simp only [List.any_eq_true, mem_indices, Option.some.injEq, exists_eq_left']

/-- Positions of a part are positions of the whole. -/
theorem shifted_pos {Ds ds : List Dim} (h : List.Forall₂ DimPart Ds ds) : ∀ ix, PosIn (ds.map fun d => d.len.toNat) ix →
    PosIn (Ds.map fun d => d.len.toNat) (ds.zipWith (fun d i => d.boundsLocal.1.toNat + i) ix) := by
  induction h with
  | nil => intro ix _; exact ⟨rfl, by simp⟩
  | @cons D d Ds ds h _ ih =>
    intro ix hix
    cases ix with
    | nil => cases hix.1
    | cons i ix =>
      have h0 : i < d.len.toNat := hix.2 0 i _ rfl rfl
      have := ih ix ⟨by simpa using hix.1, fun k a b ha hb => hix.2 (k + 1) a b ha hb⟩
      refine ⟨by simpa using this.1, ?_⟩
      intro k a b ha hb
      cases k with
      | zero =>
        simp at ha hb
        have := h.high
        have := h.len
        have := h.low
        have := h.pos
        omega
      | succ k => exact this.2 k a b ha hb

/-- The fill value rank 0 chooses. -/
theorem fill_template {α : Type} (cfg : Cfg α) (hfo : cfg.fileOnly = false) (W p : Piece α) (hp : PartOf W p)
    (hm : W.fillAttr = false → W.hasMasked = true → p.hasMasked = true) :
    fillValue cfg .template p = fillValue cfg .normal W := by
  unfold fillValue
  have hnil : p.dims = [] ↔ W.dims = [] := by
    rw [← List.length_eq_zero_iff, ← List.length_eq_zero_iff, hp.dims.length_eq]
  have hval : p.value.isNone = W.value.isNone := by
    rw [Bool.eq_iff_iff, Option.isNone_iff_eq_none, Option.isNone_iff_eq_none]
    exact hp.noValue
  have hback : p.hasMasked = true → W.hasMasked = true := by
    rw [hasMasked_iff, hasMasked_iff]
    rintro ⟨m, hm, ix, hix, hmx⟩
    cases hM : W.mask with
    | none => rw [hp.noMask.2 hM] at hm; cases hm
    | some M => exact ⟨M, rfl, shifted p ix, shifted_pos hp.dims ix hix, by rw [← hp.mask m M hm hM ix hix]; exact hmx⟩
  rw [hp.fill, hp.fillAttr, hval]
  simp only [ne_eq, hnil, hfo]
  cases hA : W.fillAttr with
  | true => simp
  | false =>
    have : p.hasMasked = W.hasMasked := by
      rw [Bool.eq_iff_iff]
      exact ⟨hback, hm hA⟩
    rw [this]
    simp

/-- The dimensions of the file. -/
def dimsOf {α : Type} (Ws : List (Piece α)) : List (String × Option Nat) := (Ws.flatMap fun W => W.dims.map decl).foldl createDim []

theorem dimsOf_snoc {α : Type} (Ws : List (Piece α)) (W : Piece α) :
    dimsOf (Ws ++ [W]) = (W.dims.map decl).foldl createDim (dimsOf Ws) := by
  unfold dimsOf
  rw [List.flatMap_append, List.foldl_append]
  simp

theorem dimsOf_lookup {α : Type} (Ws : List (Piece α))
    (h : ∀ V ∈ Ws, ∀ W ∈ Ws, ∀ d ∈ V.dims, ∀ e ∈ W.dims, d.name = e.name → d.len = e.len ∧ (d.size = none ↔ e.size = none)) :
    ∀ W ∈ Ws, ∀ D ∈ W.dims, (dimsOf Ws).lookup D.name = some (decl D).2 := by
  intro W hW D hD
  have hx : decl D ∈ Ws.flatMap fun W => W.dims.map decl := List.mem_flatMap.2 ⟨W, hW, List.mem_map_of_mem hD⟩
  have := lookup_declared (Ws.flatMap fun W => W.dims.map decl) [] ?_ (decl D) (by simpa using hx)
  · exact this
  · intro x hx y hy hxy
    rw [List.nil_append] at hx hy
    obtain ⟨V, hV, hx⟩ := List.mem_flatMap.1 hx
    obtain ⟨d, hd, rfl⟩ := List.mem_map.1 hx
    obtain ⟨U, hU, hy⟩ := List.mem_flatMap.1 hy
    obtain ⟨e, he, rfl⟩ := List.mem_map.1 hy
    obtain ⟨h1, h2⟩ := h V hV U hU d hd e he hxy
    unfold decl at hxy ⊢
    simp only at hxy
    rw [hxy, h1]
    simp [h2]

/-- The template. -/
theorem template_all {α : Type} (cfg : Cfg α) (hfo : cfg.fileOnly = false) (hfix : cfg.toFixed = false) (attrs : List (String × String))
    (Ws ps : List (Piece α)) (h : List.Forall₂ PartOf Ws ps)
    (hm : ∀ W ∈ Ws, ∀ p ∈ ps, p.name = W.name → W.fillAttr = false → W.hasMasked = true → p.hasMasked = true) :
    ∀ (done : List (Piece α)), ((done ++ Ws).map Piece.name).Nodup →
    writeAll cfg .template ps (fileOf (fillValue cfg .normal) attrs (dimsOf done) (fun _ => 0) (fun V _ => (fillValue cfg .normal V).getD cfg.dflt) done)
      = .ok (fileOf (fillValue cfg .normal) attrs (dimsOf (done ++ Ws)) (fun _ => 0) (fun V _ => (fillValue cfg .normal V).getD cfg.dflt) (done ++ Ws)) := by
  induction h with
  | nil => intro done _; rw [List.append_nil]; rfl
  | @cons W p Ws ps hp hs ih =>
    intro done hnd
    have hlive : p.dims.any Dim.isEmpty = false := by
      rw [List.any_eq_false]
      intro d hd
      obtain ⟨D, -, hDd⟩ := part_mem hp.dims d hd
      rw [hDd.live]; simp
    have hnew : ((fileOf (fillValue cfg .normal) attrs (dimsOf done) (fun _ => 0) (fun V _ => (fillValue cfg .normal V).getD cfg.dflt) done).vars.map
        Prod.fst).contains p.name = false := by
      rw [← Bool.not_eq_true, List.contains_iff_mem]
      intro hc
      unfold fileOf at hc
      simp only [List.map_map] at hc
      obtain ⟨V, hV, hVp⟩ := List.mem_map.1 hc
      rw [List.map_append, List.nodup_append] at hnd
      exact hnd.2.2 V.name (List.mem_map_of_mem hV) W.name (by simp) (hVp.trans hp.name)
    have hfill := fill_template cfg hfo W p hp (hm W List.mem_cons_self p List.mem_cons_self hp.name)
    have hone : writeVar cfg .template p (fileOf (fillValue cfg .normal) attrs (dimsOf done) (fun _ => 0) (fun V _ => (fillValue cfg .normal V).getD cfg.dflt) done)
        = .ok (fileOf (fillValue cfg .normal) attrs (dimsOf (done ++ [W])) (fun _ => 0) (fun V _ => (fillValue cfg .normal V).getD cfg.dflt) (done ++ [W])) := by
      unfold writeVar
      rw [if_neg (by simp [hlive])]
      simp only
      rw [hnew]
      simp only [Bool.false_eq_true, if_false, if_true]
      rw [hfill, declared_part cfg hfix W.dims p.dims hp.dims, dimsOf_snoc, same_names hp.dims, hp.attrs, hp.name]
      unfold fileOf
      simp
    rw [writeAll, hone]
    simp only
    have := ih (fun V hV q hq => hm V (List.mem_cons_of_mem _ hV) q (List.mem_cons_of_mem _ hq)) (done ++ [W]) (by simpa using hnd)
    simpa using this

/-- The file of one process. -/
theorem normal_all {α : Type} (cfg : Cfg α) (hfo : cfg.fileOnly = false) (hfix : cfg.toFixed = false) (attrs : List (String × String))
    (Ws : List (Piece α)) (hw : ∀ W ∈ Ws, PartOf W W) : ∀ (done : List (Piece α)) (e : String → Nat) (g : Piece α → List Nat → α),
    ((done ++ Ws).map Piece.name).Nodup →
    (∀ V ∈ done ++ Ws, ∀ W ∈ done ++ Ws, ∀ d ∈ V.dims, ∀ e ∈ W.dims, d.name = e.name → d.len = e.len ∧ (d.size = none ↔ e.size = none)) →
    Filled cfg.dflt (fillValue cfg .normal) done done.reverse e g →
    ∃ e' g', writeAll cfg .normal Ws (fileOf (fillValue cfg .normal) attrs (dimsOf done) e g done) =
        .ok (fileOf (fillValue cfg .normal) attrs (dimsOf (done ++ Ws)) e' g' (done ++ Ws)) ∧
      Filled cfg.dflt (fillValue cfg .normal) (done ++ Ws) (done ++ Ws).reverse e' g' := by
  induction Ws with
  | nil => intro done e g _ _ hF; exact ⟨e, g, by rw [List.append_nil]; rfl, by simpa using hF⟩
  | cons W Ws ih =>
    intro done e g hnd hsound hF
    have hp := hw W List.mem_cons_self
    have hlive : W.dims.any Dim.isEmpty = false := by
      rw [List.any_eq_false]
      intro d hd
      obtain ⟨D, -, hDd⟩ := part_mem hp.dims d hd
      rw [hDd.live]; simp
    have hfresh : ∀ V ∈ done, V.name ≠ W.name := by
      intro V hV hVW
      rw [List.map_append, List.nodup_append] at hnd
      exact hnd.2.2 V.name (List.mem_map_of_mem hV) W.name (by simp) hVW
    have hnew : ((fileOf (fillValue cfg .normal) attrs (dimsOf done) e g done).vars.map Prod.fst).contains W.name = false := by
      rw [← Bool.not_eq_true, List.contains_iff_mem]
      intro hc
      unfold fileOf at hc
      simp only [List.map_map] at hc
      obtain ⟨V, hV, hVp⟩ := List.mem_map.1 hc
      exact hfresh V hV hVp
    let g1 : Piece α → List Nat → α := fun V => if V.name = W.name then (fun _ => (fillValue cfg .normal W).getD cfg.dflt) else g V
    have hg1 : ∀ V ∈ done, g1 V = g V := by
      intro V hV
      show (if V.name = W.name then _ else _) = _
      rw [if_neg (hfresh V hV)]
    have hg1W : g1 W = fun _ => (fillValue cfg .normal W).getD cfg.dflt := by
      show (if W.name = W.name then _ else _) = _
      rw [if_pos rfl]
    have hF1 : Filled cfg.dflt (fillValue cfg .normal) (done ++ [W]) done.reverse e g1 := by
      refine ⟨?_, ?_, ?_, ?_⟩
      · intro V hV A hA hk p hpd hpn ix hix
        rcases List.mem_append.1 hV with hV | hV
        · rw [hg1 V hV]
          exact hF.cells V hV A hA hk p hpd hpn ix hix
        · have : V = W := by simpa using hV
          subst this
          exact absurd hpn (hfresh p (by simpa using hpd))
      · intro V hV ix h
        rcases List.mem_append.1 hV with hV | hV
        · rw [hg1 V hV]
          exact hF.rest V hV ix h
        · have : V = W := by simpa using hV
          subst this
          rw [hg1W]
      · intro V hV hk hv p hpd hpn
        rcases List.mem_append.1 hV with hV | hV
        · exact hF.least V hV hk hv p hpd hpn
        · have : V = W := by simpa using hV
          subst this
          exact absurd hpn (hfresh p (by simpa using hpd))
      · intro n
        rcases hF.most n with h | ⟨V, hV, h⟩
        · exact .inl h
        · exact .inr ⟨V, List.mem_append_left _ hV, h⟩
    have hnd1 : ((done ++ [W]).map Piece.name).Nodup := by
      have : (done ++ W :: Ws).map Piece.name = (done ++ [W]).map Piece.name ++ Ws.map Piece.name := by simp
      rw [this, List.nodup_append] at hnd
      exact hnd.1
    have hsub : ∀ V ∈ done ++ [W], V ∈ done ++ W :: Ws := by
      intro V hV
      simp at hV ⊢
      grind
    have hd := dimsOf_lookup (done ++ [W]) (fun V hV U hU => hsound V (hsub V hV) U (hsub U hU)) W (by simp)
    obtain ⟨e2, g2, h1, h2⟩ := write_part cfg hfo (fillValue cfg .normal) attrs (dimsOf (done ++ [W])) e g1 (done ++ [W]) done.reverse hnd1 W W
      (by simp) hp hd hF1
    have hone : writeVar cfg .normal W (fileOf (fillValue cfg .normal) attrs (dimsOf done) e g done) =
        .ok (fileOf (fillValue cfg .normal) attrs (dimsOf (done ++ [W])) e2 g2 (done ++ [W])) := by
      rw [← h1]
      unfold writeVar
      rw [if_neg (by simp [hlive])]
      simp only
      rw [hnew]
      simp only [Bool.false_eq_true, if_false, reduceCtorEq]
      rw [declared_whole cfg hfix, hg1W]
      congr 1
      unfold fileOf
      simp only [dimsOf_snoc, List.map_append, List.map_cons, List.map_nil, hg1W]
      congr 2
      apply List.map_congr_left
      intro V hV
      rw [hg1 V hV]
    rw [writeAll, hone]
    simp only
    have := ih (fun V hV => hw V (List.mem_cons_of_mem _ hV)) (done ++ [W]) e2 g2 (by simpa using hnd) (by simpa using hsound) (by simpa using h2)
    simpa using this

/-- Parts that cover the variables. -/
structure Covering {α : Type} (Ws P : List (Piece α)) : Prop where
  parts : ∀ p ∈ P, ∃ W ∈ Ws, PartOf W p
  cover : ∀ W ∈ Ws, ∀ ix, PosIn W.shape ix → ∃ p ∈ P, p.name = W.name ∧ HasPos p ix

theorem part_unique {α : Type} {Ws P : List (Piece α)} (hn : (Ws.map Piece.name).Nodup) (hc : Covering Ws P) {W p : Piece α} (hW : W ∈ Ws)
    (hp : p ∈ P) (h : p.name = W.name) : PartOf W p := by
  obtain ⟨V, hV, hVp⟩ := hc.parts p hp
  have := name_unique Ws hn V W hV hW (hVp.name.symm.trans h)
  rw [← this]
  exact hVp

theorem hasPos_in {α : Type} {W p : Piece α} (h : PartOf W p) {ix : List Nat} (hix : HasPos p ix) : PosIn W.shape ix :=
  ((hasPos_block h.dims ix).2 ((hasPos_block h.dims ix).1.2 hix)).2.2

theorem filled_data {α : Type} {dflt : α} {fv : Piece α → Option α} {Ws P : List (Piece α)} {e : String → Nat} {g : Piece α → List Nat → α}
    (hn : (Ws.map Piece.name).Nodup) (hc : Covering Ws P) (hF : Filled dflt fv Ws P e g) (W : Piece α) (hW : W ∈ Ws) (ix : List Nat) :
    (∀ A, W.value = some A → W.kind ≠ .crs → PosIn W.shape ix → g W ix = cell dflt (fv W) W A ix) ∧
    ((W.kind = .crs ∨ W.value = none ∨ ¬ PosIn W.shape ix) → g W ix = (fv W).getD dflt) := by
  refine ⟨?_, ?_⟩
  · intro A hA hk hix
    obtain ⟨p, hp, hpn, hpos⟩ := hc.cover W hW ix hix
    exact hF.cells W hW A hA hk p hp hpn ix hpos
  · intro h
    refine hF.rest W hW ix ?_
    rcases h with h | h | h
    · exact .inl h
    · exact .inr (.inl h)
    · exact .inr (.inr fun p hp hpn hpos => h (hasPos_in (part_unique hn hc hW hp hpn) hpos))

theorem filled_extent {α : Type} {dflt : α} {fv : Piece α → Option α} {Ws P : List (Piece α)} {e : String → Nat} {g : Piece α → List Nat → α}
    (hn : (Ws.map Piece.name).Nodup) (hc : Covering Ws P) (hF : Filled dflt fv Ws P e g) (hpos : ∀ W ∈ Ws, ∀ D ∈ W.dims, 0 < D.len)
    (W : Piece α) (hW : W ∈ Ws) (hk : W.kind ≠ .crs) (hv : W.value ≠ none) (D : Dim) (hD : D ∈ W.dims) : D.len.toNat ≤ e D.name := by
  have hix : PosIn W.shape (W.dims.map fun d => d.len.toNat - 1) := by
    refine ⟨by simp [Piece.shape], ?_⟩
    intro k i n hi hn
    unfold Piece.shape at hn
    rw [List.getElem?_map] at hi hn
    cases hd : W.dims[k]? with
    | none => rw [hd] at hi; cases hi
    | some d =>
      rw [hd] at hi hn
      simp only [Option.map_some, Option.some.injEq] at hi hn
      have := hpos W hW d (List.mem_of_getElem? hd)
      omega
  obtain ⟨p, hp, hpn, hhas⟩ := hc.cover W hW _ hix
  have hpart := part_unique hn hc hW hp hpn
  obtain ⟨k, hk'⟩ := List.getElem?_of_mem hD
  have hkl : k < p.dims.length := by
    rw [← hpart.dims.length_eq]
    exact (List.getElem?_eq_some_iff.1 hk').1
  have hkl' : k < W.dims.length := (List.getElem?_eq_some_iff.1 hk').1
  have hDp : DimPart W.dims[k] p.dims[k] := (List.forall₂_iff_get.1 hpart.dims).2 k hkl' hkl
  have hDeq : W.dims[k] = D := (List.getElem?_eq_some_iff.1 hk').2
  rw [hDeq] at hDp
  have h1 := (hhas.2 k (D.len.toNat - 1) p.dims[k] (by rw [List.getElem?_map, hk']; rfl) (List.getElem?_eq_getElem hkl)).2
  have h2 := hF.least W hW hk hv p hp hpn p.dims[k] (List.getElem_mem hkl)
  rw [hDp.name] at h2
  omega

theorem filled_unique {α : Type} {dflt : α} {fv : Piece α → Option α} {Ws P Q : List (Piece α)} {e e' : String → Nat}
    {g g' : Piece α → List Nat → α} (hn : (Ws.map Piece.name).Nodup) (hP : Covering Ws P) (hQ : Covering Ws Q)
    (hpos : ∀ W ∈ Ws, ∀ D ∈ W.dims, 0 < D.len)
    (hF : Filled dflt fv Ws P e g) (hG : Filled dflt fv Ws Q e' g') : e = e' ∧ ∀ W ∈ Ws, g W = g' W := by
  have hle : ∀ {P Q : List (Piece α)} {e e' : String → Nat} {g g' : Piece α → List Nat → α}, Covering Ws Q →
      Filled dflt fv Ws P e g → Filled dflt fv Ws Q e' g' → ∀ n, e n ≤ e' n := by
    intro P Q e e' g g' hQ hF hG n
    rcases hF.most n with h | ⟨W, hW, hk, hv, D, hD, hDn, hDe⟩
    · omega
    · have := filled_extent hn hQ hG hpos W hW hk hv D hD
      rw [hDn] at this
      omega
  refine ⟨?_, ?_⟩
  · funext n
    exact Nat.le_antisymm (hle hQ hF hG n) (hle hP hG hF n)
  · intro W hW
    funext ix
    obtain ⟨a1, a2⟩ := filled_data hn hP hF W hW ix
    obtain ⟨b1, b2⟩ := filled_data hn hQ hG W hW ix
    by_cases h : W.kind = .crs ∨ W.value = none ∨ ¬ PosIn W.shape ix
    · rw [a2 h, b2 h]
    · simp only [not_or, not_not] at h
      cases hv : W.value with
      | none => exact absurd hv h.2.1
      | some A => rw [a1 A hv h.1 h.2.2, b1 A hv h.1 h.2.2]

theorem filter_parts {α : Type} {Ws ps : List (Piece α)} (h : List.Forall₂ PartOf Ws ps) :
    List.Forall₂ PartOf (Ws.filter fun p => decide (p.kind ≠ .geometry)) (ps.filter fun p => decide (p.kind ≠ .geometry)) := by
  induction h with
  | nil => exact .nil
  | @cons W p Ws ps h _ ih =>
    rw [List.filter_cons, List.filter_cons, h.kind]
    split
    · exact .cons h ih
    · exact ih

theorem parts_mem {α : Type} {Ws ps : List (Piece α)} (h : List.Forall₂ PartOf Ws ps) : ∀ p ∈ ps, ∃ W ∈ Ws, PartOf W p := by
  induction h with
  | nil => intro p hp; cases hp
  | cons h _ ih =>
    intro p hp
    rcases List.mem_cons.1 hp with rfl | hp
    · exact ⟨_, List.mem_cons_self, h⟩
    · obtain ⟨W, h1, h2⟩ := ih p hp
      exact ⟨W, List.mem_cons_of_mem _ h1, h2⟩

/-- The fill turns of the ranks. -/
theorem fill_ranks {α : Type} (cfg : Cfg α) (hfo : cfg.fileOnly = false) (fv : Piece α → Option α) (attrs : List (String × String))
    (dims : List (String × Option Nat)) (Ws : List (Piece α)) (hn : (Ws.map Piece.name).Nodup)
    (hd : ∀ W ∈ Ws, ∀ D ∈ W.dims, dims.lookup D.name = some (decl D).2) :
    ∀ (colls : List (Coll α)) (P : List (Piece α)) (e : String → Nat) (g : Piece α → List Nat → α),
    (∀ c ∈ colls, ∀ p ∈ written c, ∃ W ∈ Ws, PartOf W p) → Filled cfg.dflt fv Ws P e g →
    ∃ e' g' Q, runOps cfg (some (fileOf fv attrs dims e g Ws)) (colls.flatMap (turn .fill)) = .ok (some (fileOf fv attrs dims e' g' Ws)) ∧
      Filled cfg.dflt fv Ws Q e' g' ∧ ∀ p, p ∈ Q ↔ p ∈ P ∨ ∃ c ∈ colls, p ∈ written c := by
  intro colls
  induction colls with
  | nil => intro P e g _ hF; exact ⟨e, g, P, rfl, hF, by simp⟩
  | cons c colls ih =>
    intro P e g hps hF
    obtain ⟨e1, g1, h1, h2⟩ := fill_all cfg hfo fv attrs dims Ws hn hd (written c) P e g (hps c List.mem_cons_self) hF
    obtain ⟨e2, g2, Q, h3, h4, h5⟩ := ih ((written c).reverse ++ P) e1 g1 (fun c hc => hps c (List.mem_cons_of_mem _ hc)) h2
    refine ⟨e2, g2, Q, ?_, h4, ?_⟩
    · rw [List.flatMap_cons, runOps_append, run_turn cfg .fill c (some (fileOf fv attrs dims e g Ws)) _ _ rfl h1]
      exact h3
    · intro p
      rw [h5]
      simp only [List.mem_append, List.mem_reverse, List.mem_cons, exists_eq_or_imp]
      grind

theorem phases_one {α : Type} (c : Coll α) : (phases [c]).flatMap Prod.snd = turn .normal c := by
  simp [phases, writeModes]

theorem phases_many {α : Type} (c : Coll α) (cs : List (Coll α)) (h : cs ≠ []) :
    (phases (c :: cs)).flatMap Prod.snd = turn .template c ++ (c :: cs).flatMap (turn .fill) := by
  have hlen : 1 < (c :: cs).length := by
    have := List.length_pos_iff.2 h
    simp
    omega
  have hfill : ∀ (l : List (Coll α)) (k : Nat),
      (l.zipIdx k).flatMap (fun x => if Mode.fill = Mode.template ∧ x.2 ≠ 0 then [] else turn Mode.fill x.1) = l.flatMap (turn .fill) := by
    intro l
    induction l with
    | nil => intro k; rfl
    | cons c l ih =>
      intro k
      rw [List.zipIdx_cons, List.flatMap_cons, List.flatMap_cons, ih, if_neg (by simp)]
  have htemp : ∀ (l : List (Coll α)) (k : Nat), 0 < k →
      (l.zipIdx k).flatMap (fun x => if Mode.template = Mode.template ∧ x.2 ≠ 0 then [] else turn Mode.template x.1) = [] := by
    intro l
    induction l with
    | nil => intro k _; rfl
    | cons c l ih =>
      intro k hk
      rw [List.zipIdx_cons, List.flatMap_cons, ih _ (by omega), if_pos ⟨rfl, by simp only; omega⟩]
      rfl
  unfold phases writeModes
  rw [if_pos hlen, List.flatMap_assoc]
  simp only [List.flatMap_map]
  rw [List.flatMap_cons, List.flatMap_cons, List.flatMap_nil, hfill, List.append_nil, List.zipIdx_cons, List.flatMap_cons,
    htemp cs _ (by omega), if_neg (by simp), List.append_nil]

/-- The file the turns produce. -/
theorem parallel_file {α : Type} (cfg : Cfg α) (hfo : cfg.fileOnly = false) (hfix : cfg.toFixed = false) (whole : Coll α)
    (c : Coll α) (cs : List (Coll α)) (hcs : cs ≠ []) (hs : SoundColl whole) (hsplit : SplitOf whole (c :: cs))
    (hmask : ∀ W ∈ whole.pieces, ∀ p ∈ c.pieces, p.name = W.name → W.fillAttr = false → SomeMasked W → SomeMasked p)
    (file : Option (NcFile α)) :
    ∃ e g P, runOps cfg file ((phases (c :: cs)).flatMap Prod.snd) =
        .ok (some (fileOf (fillValue cfg .normal) whole.attrs (dimsOf (written whole)) e g (written whole))) ∧
      Filled cfg.dflt (fillValue cfg .normal) (written whole) P e g ∧ Covering (written whole) P := by
  have hn : ((written whole).map Piece.name).Nodup := hs.names.sublist (List.filter_sublist.map _)
  have hmem : ∀ W ∈ written whole, W ∈ whole.pieces := fun W hW => (List.mem_filter.1 hW).1
  have hparts : ∀ d ∈ c :: cs, List.Forall₂ PartOf (written whole) (written d) := fun d hd => filter_parts (hsplit.parts d hd)
  have htemp := template_all cfg hfo hfix whole.attrs (written whole) (written c) (hparts c List.mem_cons_self)
    (by
      intro W hW p hp hpn hfa hmW
      rw [hasMasked_iff] at hmW ⊢
      exact hmask W (hmem W hW) p (List.mem_filter.1 hp).1 hpn hfa hmW) [] (by simpa using hn)
  have hd := dimsOf_lookup (written whole) (fun V hV W hW => hs.dims V (hmem V hV) W (hmem W hW))
  have hF0 : Filled cfg.dflt (fillValue cfg .normal) (written whole) [] (fun _ => 0) (fun V _ => (fillValue cfg .normal V).getD cfg.dflt) :=
    ⟨fun _ _ _ _ _ _ h => by (cases h), fun _ _ _ _ => rfl, fun _ _ _ _ _ h => by (cases h), fun _ => .inl rfl⟩
  obtain ⟨e, g, Q, h1, h2, h3⟩ := fill_ranks cfg hfo (fillValue cfg .normal) whole.attrs (dimsOf (written whole)) (written whole) hn hd
    (c :: cs) [] _ _ (fun d hd p hp => parts_mem (hparts d hd) p hp) hF0
  refine ⟨e, g, Q, ?_, h2, ?_, ?_⟩
  · rw [phases_many c cs hcs, runOps_append, run_turn cfg .template c file { attrs := whole.attrs } _ ?_ ?_]
    · exact h1
    · rw [← hsplit.attrs c List.mem_cons_self]; rfl
    · exact htemp
  · intro p hp
    rcases (h3 p).1 hp with h | ⟨d, hd, h⟩
    · cases h
    · exact parts_mem (hparts d hd) p h
  · intro W hW ix hix
    obtain ⟨d, hd, p, hp, hpn, hpos⟩ := hsplit.cover W (hmem W hW) ix hix
    refine ⟨p, (h3 p).2 (.inr ⟨d, hd, ?_⟩), hpn, hpos⟩
    obtain ⟨V, hV, hVp⟩ := parts_mem (hsplit.parts d hd) p hp
    have hVW : V = W := name_unique whole.pieces hs.names V W hV (hmem W hW) (hVp.name.symm.trans hpn)
    subst hVW
    refine List.mem_filter.2 ⟨hp, ?_⟩
    rw [hVp.kind]
    exact (List.mem_filter.1 hW).2

theorem serial_file {α : Type} (cfg : Cfg α) (hfo : cfg.fileOnly = false) (hfix : cfg.toFixed = false) (whole : Coll α)
    (hs : SoundColl whole) (hself : SplitOf whole [whole]) (file : Option (NcFile α)) :
    ∃ e g P, runOps cfg file ((phases [whole]).flatMap Prod.snd) =
        .ok (some (fileOf (fillValue cfg .normal) whole.attrs (dimsOf (written whole)) e g (written whole))) ∧
      Filled cfg.dflt (fillValue cfg .normal) (written whole) P e g ∧ Covering (written whole) P := by
  have hn : ((written whole).map Piece.name).Nodup := hs.names.sublist (List.filter_sublist.map _)
  have hmem : ∀ W ∈ written whole, W ∈ whole.pieces := fun W hW => (List.mem_filter.1 hW).1
  have hparts := hself.parts whole List.mem_cons_self
  have hpart : ∀ W ∈ whole.pieces, PartOf W W := by
    intro W hW
    obtain ⟨V, hV, hVW⟩ := parts_mem hparts W hW
    have := name_unique whole.pieces hs.names V W hV hW hVW.name.symm
    rw [this] at hVW
    exact hVW
  have hF0 : Filled cfg.dflt (fillValue cfg .normal) [] [] (fun _ => 0) (fun V _ => (fillValue cfg .normal V).getD cfg.dflt) :=
    ⟨fun _ h => by (cases h), fun _ h => by (cases h), fun _ h => by (cases h), fun _ => .inl rfl⟩
  obtain ⟨e, g, h1, h2⟩ := normal_all cfg hfo hfix whole.attrs (written whole) (fun W hW => hpart W (hmem W hW)) [] _ _ (by simpa using hn)
    (by simpa using fun V hV W hW => hs.dims V (hmem V hV) W (hmem W hW)) hF0
  refine ⟨e, g, _, ?_, h2, ?_, ?_⟩
  · rw [phases_one]
    exact run_turn cfg .normal whole file { attrs := whole.attrs } _ rfl h1
  · intro p hp
    have hp : p ∈ written whole := by simpa using hp
    exact ⟨p, hp, hpart p (hmem p hp)⟩
  · intro W hW ix hix
    obtain ⟨d, hd, p, hp, hpn, hpos⟩ := hself.cover W (hmem W hW) ix hix
    have : d = whole := by simpa using hd
    subst this
    have := name_unique d.pieces hs.names p W hp (hmem W hW) hpn
    subst this
    exact ⟨p, by simpa using hW, rfl, hpos⟩

theorem steps_cons {α : Type} {cfg : Cfg α} {s t u : State α} (h : Step cfg s t) (h' : Steps cfg t u) : Steps cfg s u := by
  induction h' with
  | refl => exact .step (.refl _) h
  | step _ h2 ih => exact .step ih h2

/-- Some execution finishes. -/
theorem finishes {α : Type} (cfg : Cfg α) (file : Option (NcFile α)) (colls : List (Coll α)) (h : colls ≠ [])
    (f : Option (NcFile α)) (hok : runOps cfg file ((phases colls).flatMap Prod.snd) = .ok f) :
    ∃ t, Steps cfg (NcWrite.start file colls) t ∧ Finished t ∧ t.file = f := by
  have key : ∀ (n : Nat) (s : State α), remaining s ≤ n → Steps cfg (NcWrite.start file colls) s →
      ∃ t, Steps cfg (NcWrite.start file colls) t ∧ Finished t := by
    intro n
    induction n with
    | zero =>
      intro s hn hs
      by_cases hf : Finished s
      · exact ⟨s, hs, hf⟩
      · obtain ⟨u, hu⟩ := (schedules cfg file colls h f hok s hs).2.2.2 hf
        have := remaining_step cfg s u hu
        omega
    | succ n ih =>
      intro s hn hs
      by_cases hf : Finished s
      · exact ⟨s, hs, hf⟩
      · obtain ⟨u, hu⟩ := (schedules cfg file colls h f hok s hs).2.2.2 hf
        have := remaining_step cfg s u hu
        exact ih u (by omega) (.step hs hu)
  obtain ⟨t, ht, hf⟩ := key _ _ (Nat.le_refl _) (.refl _)
  exact ⟨t, ht, hf, (schedules cfg file colls h f hok t ht).2.2.1 hf⟩

/-- A dataset of three times and two places, unlimited in time, whole and on two ranks. -/
def timeDim (lo hi : Int) : Dim := ⟨"time", none, some (hi - lo), true, false, some (lo, hi), some (0, 3), none⟩

def placeDim : Dim := ⟨"place", some 2, some 2, false, false, some (0, 2), some (0, 2), none⟩

def reading (masked : List Nat → Bool) (lo hi : Int) : Piece Nat :=
  { name := "tas", dims := [timeDim lo hi, placeDim], fill := 99
    value := some ⟨[(hi - lo).toNat, 2], fun ix => 10 * (lo.toNat + ix.headD 0) + (ix.tail.headD 0)⟩
    mask := some fun ix => masked ((lo.toNat + ix.headD 0) :: ix.tail) }

def placeVar : Piece Nat := { name := "place", dims := [placeDim], fill := 99, value := some ⟨[2], fun ix => 5 + ix.headD 0⟩ }

def readings (masked : List Nat → Bool) (lo hi : Int) : Coll Nat :=
  { attrs := [("title", "readings")], pieces := [reading masked lo hi, placeVar] }

theorem place_part : PartOf placeVar placeVar := by
  refine ⟨rfl, rfl, rfl, rfl, rfl, ?_, Iff.rfl, ?_, Iff.rfl, by intro m M h; cases h⟩
  · exact .cons ⟨rfl, Iff.rfl, rfl, by decide, by decide, by decide, by decide, rfl⟩ .nil
  · intro a A ha hA
    injection ha with ha
    injection hA with hA
    subst ha; subst hA
    refine ⟨rfl, ?_⟩
    intro ix hix
    match ix, hix with
    | [], h => cases h.1
    | [i], _ => simp [shifted, placeVar, placeDim, Dim.boundsLocal]
    | _ :: _ :: _, h => simp [PosIn, Piece.shape, placeVar] at h

theorem reading_part (masked : List Nat → Bool) (lo hi : Int) (h0 : 0 ≤ lo) (h1 : lo < hi) (h2 : hi ≤ 3) :
    PartOf (reading masked 0 3) (reading masked lo hi) := by
  refine ⟨rfl, rfl, rfl, rfl, rfl, ?_, by simp [reading], ?_, by simp [reading], ?_⟩
  · refine .cons ⟨rfl, Iff.rfl, rfl, ?_, ?_, ?_, ?_, rfl⟩ (.cons ⟨rfl, Iff.rfl, rfl, by decide, by decide, by decide, by decide, rfl⟩ .nil)
    all_goals simp [timeDim, Dim.boundsLocal, Dim.len]
    all_goals omega
  · intro a A ha hA
    injection ha with ha
    injection hA with hA
    subst ha; subst hA
    refine ⟨rfl, ?_⟩
    intro ix hix
    match ix, hix with
    | [], h => cases h.1
    | [i], h => simp [PosIn, Piece.shape, reading] at h
    | [i, j], _ => simp [shifted, reading, timeDim, placeDim, Dim.boundsLocal]
    | _ :: _ :: _ :: _, h => simp [PosIn, Piece.shape, reading] at h
  · intro m M hm hM ix hix
    injection hm with hm
    injection hM with hM
    subst hm; subst hM
    match ix, hix with
    | [], h => cases h.1
    | [i], h => simp [PosIn, Piece.shape, reading] at h
    | [i, j], _ => simp [shifted, reading, timeDim, placeDim, Dim.boundsLocal]
    | _ :: _ :: _ :: _, h => simp [PosIn, Piece.shape, reading] at h

theorem readings_parts (masked : List Nat → Bool) (lo hi : Int) (h0 : 0 ≤ lo) (h1 : lo < hi) (h2 : hi ≤ 3) :
    List.Forall₂ PartOf (readings masked 0 3).pieces (readings masked lo hi).pieces :=
  .cons (reading_part masked lo hi h0 h1 h2) (.cons place_part .nil)

theorem readings_sound (masked : List Nat → Bool) : SoundColl (readings masked 0 3) := by
  refine ⟨by simp [readings, reading, placeVar], ?_⟩
  intro V hV W hW d hd e he hde
  simp only [readings, List.mem_cons, List.not_mem_nil, or_false] at hV hW
  rcases hV with rfl | rfl <;> rcases hW with rfl | rfl <;>
    simp only [reading, placeVar, List.mem_cons, List.not_mem_nil, or_false] at hd he <;> grind [timeDim, placeDim]

theorem readings_split (masked : List Nat → Bool) (cuts : List (Int × Int)) (h : ∀ c ∈ cuts, 0 ≤ c.1 ∧ c.1 < c.2 ∧ c.2 ≤ 3)
    (hc : ∀ i : Nat, i < 3 → ∃ c ∈ cuts, c.1 ≤ (i : Int) ∧ (i : Int) < c.2) :
    SplitOf (readings masked 0 3) (cuts.map fun c => readings masked c.1 c.2) := by
  refine ⟨?_, ?_, ?_⟩
  · intro c hc
    obtain ⟨x, -, rfl⟩ := List.mem_map.1 hc
    rfl
  · intro c hc
    obtain ⟨x, hx, rfl⟩ := List.mem_map.1 hc
    obtain ⟨a, b, c⟩ := h x hx
    exact readings_parts masked x.1 x.2 a b c
  · intro W hW ix hix
    simp only [readings, List.mem_cons, List.not_mem_nil, or_false] at hW
    rcases hW with rfl | rfl
    · match ix, hix with
      | [], h => cases h.1
      | [i], h => simp [PosIn, Piece.shape, reading] at h
      | [i, j], hix =>
        have hi : i < 3 := hix.2 0 i _ rfl rfl
        have hj : j < 2 := hix.2 1 j _ rfl rfl
        obtain ⟨c, hcm, h1, h2⟩ := hc i hi
        refine ⟨readings masked c.1 c.2, List.mem_map_of_mem hcm, reading masked c.1 c.2, by simp [readings], rfl, rfl, ?_⟩
        intro k a d ha hd
        match k with
        | 0 =>
          injection ha with ha
          injection hd with hd
          subst ha; subst hd
          exact ⟨h1, h2⟩
        | 1 =>
          injection ha with ha
          injection hd with hd
          subst ha; subst hd
          exact ⟨Int.natCast_nonneg _, by show (j : Int) < 2; omega⟩
        | k + 2 => simp at ha
      | _ :: _ :: _ :: _, h => simp [PosIn, Piece.shape, reading] at h
    · obtain ⟨c, hcm, -⟩ := hc 0 (by omega)
      refine ⟨readings masked c.1 c.2, List.mem_map_of_mem hcm, placeVar, by simp [readings], rfl, hix.1.trans rfl, ?_⟩
      intro k a d ha hd
      have := hix.2 k a _ ha (by rw [Piece.shape, List.getElem?_map, hd]; rfl)
      have hd' : d = placeDim := by
        have := List.mem_of_getElem? hd
        simpa [placeVar] using this
      subst hd'
      simp only [placeDim, Dim.len, Dim.boundsLocal, Option.getD_some] at this ⊢
      omega

theorem leads {α : Type} {cfg : Cfg α} {s u : State α} {P : State α → Prop} (h : Step cfg s u) (h' : ∃ t, Steps cfg u t ∧ P t) :
    ∃ t, Steps cfg s t ∧ P t := h'.imp fun _ ht => ⟨steps_cons h ht.1, ht.2⟩

theorem stuck {α : Type} (cfg : Cfg α) (t : State α) (h : t.progs = [[.barrier], []]) : ¬ Finished t ∧ ∀ u, ¬ Step cfg t u := by
  refine ⟨fun hf => ?_, fun u hu => ?_⟩
  · have := hf [.barrier] (by simp [h])
    cases this
  · cases hu with
    | run i op rest file hp hb _ =>
      rw [h] at hp
      match i with
      | 0 =>
        injection hp with hp
        exact hb [] hp.symm
      | 1 => simp at hp
      | i + 2 => simp at hp
    | fail i op rest e hp hb _ =>
      rw [h] at hp
      match i with
      | 0 =>
        injection hp with hp
        exact hb [] hp.symm
      | 1 => simp at hp
      | i + 2 => simp at hp
    | sync _ hb =>
      obtain ⟨r, hr⟩ := hb [] (by simp [h])
      cases hr

theorem barriers {α : Type} (a b : List (Op α)) : ∀ p ∈ [.barrier :: a, .barrier :: b], ∃ rest, p = Op.barrier :: rest := by
  intro p hp
  rcases List.mem_cons.1 hp with rfl | hp
  · exact ⟨_, rfl⟩
  · rcases List.mem_cons.1 hp with rfl | hp
    · exact ⟨_, rfl⟩
    · cases hp

theorem onlyStructure_write {α : Type} {cfg : Cfg α} (hfo : cfg.fileOnly = true) {mode : Mode} {p : Piece α} {f g : NcFile α}
    (h : writeVar cfg mode p f = .ok g) (hf : OnlyStructure cfg.dflt f) : OnlyStructure cfg.dflt g := by
  have hd : ∀ nv f', writeData cfg p nv f' = .ok f' := by
    intro nv f'
    unfold writeData
    rw [hfo]
    rfl
  unfold writeVar at h
  split at h
  · cases h
  · split at h
    · split at h
      · cases h
      · rw [hd] at h; cases h; exact hf
    · split at h
      · cases h
      · have : ∀ nv : NcVar α, (∀ ix, nv.data ix = nv.fill.getD cfg.dflt) → ∀ ds,
            OnlyStructure cfg.dflt { f with dims := ds, vars := f.vars ++ [(p.name, nv)] } := by
          intro nv hnv ds x hx
          simp only [List.mem_append, List.mem_singleton] at hx
          rcases hx with hx | rfl
          · exact hf x hx
          · exact hnv
        simp only at h
        split at h
        · cases h; exact this _ (fun _ => rfl) _
        · rw [hd] at h; cases h; exact this _ (fun _ => rfl) _

theorem onlyStructure_effect {α : Type} {cfg : Cfg α} (hfo : cfg.fileOnly = true) {op : Op α} {o o' : Option (NcFile α)}
    (h : effect cfg o op = .ok o') (hf : ∀ f, o = some f → OnlyStructure cfg.dflt f) : ∀ f, o' = some f → OnlyStructure cfg.dflt f := by
  cases op with
  | openFile mode attrs =>
    cases mode
    all_goals
      simp only [effect] at h
      cases h
      intro f hf'
      cases hf'
    case openFile.fill.refl.refl =>
      cases o with
      | none => intro x hx; cases hx
      | some f => exact hf f rfl
    all_goals
      intro x hx; cases hx
  | write mode p =>
    cases o with
    | none => simp only [effect] at h; cases h
    | some f =>
      simp only [effect] at h
      cases hw : writeVar cfg mode p f with
      | error e => rw [hw] at h; cases h
      | ok g =>
        rw [hw] at h
        cases h
        rintro f' hf'
        cases hf'
        exact onlyStructure_write hfo hw (hf f rfl)
  | close => simp only [effect] at h; cases h; exact hf
  | barrier => simp only [effect] at h; cases h; exact hf

end Ocgis.Props
