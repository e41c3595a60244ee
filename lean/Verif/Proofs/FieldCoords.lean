import Verif.Spec.FieldCoords
/-! Lemmas about fields and their coordinates. -/
namespace Ocgis.FieldCoords
open Ocgis.DimMap (Attrs noAttrs updateAttrs defaultAttrs)

theorem put_vars (f : Field) (n : String) (v : Var) (m : String) :
    (f.put n v).vars m = if m = n then some v else f.vars m := rfl
theorem put_map (f : Field) (n : String) (v : Var) : (f.put n v).map = f.map := rfl
theorem put_tags (f : Field) (n : String) (v : Var) : (f.put n v).tags = f.tags := rfl
theorem put_fresh (f : Field) (n : String) (v : Var) : (f.put n v).fresh = f.fresh := rfl

theorem enter_same (f : Field) (k : Key) : f.enter k (f.map k) = f := by
  unfold Field.enter
  have : (fun j => if j = k then f.map k else f.map j) = f.map := by
    funext j
    by_cases h : j = k
    · subst h; simp
    · simp [h]
  rw [this]

/-- Every name in the map belongs to its key. -/
def NameOk (own : String → Option Key) (f : Field) : Prop := ∀ j m, (f.map j).var = some m → own m = some j

theorem noteBounds_same {own : String → Option Key} {f : Field} (hn : NameOk own f) {k : Key} {n : String}
    (ho : own n = some k) {b : Option String} (hb : (f.map k).bounds = b) : f.noteBounds n b = f := by
  unfold Field.noteBounds
  have key : ∀ j, f.inquire n = some j → j = k := by
    intro j hj
    have : (f.map j).var = some n := by
      unfold Field.inquire at hj
      split at hj
      · rename_i h; cases hj; exact h
      split at hj
      · rename_i h; cases hj; exact h
      split at hj
      · rename_i h; cases hj; exact h
      · cases hj
    have := hn j n this
    rw [ho] at this
    cases this; rfl
  cases hq : f.inquire n with
  | none => rfl
  | some j =>
    have := key j hq
    subst this
    simp only
    subst hb
    exact enter_same f j

theorem setBounds_some {own : String → Option Key} {f : Field} (hn : NameOk own f) {k : Key} {n b : String}
    (ho : own n = some k) (hne : b ≠ n) (hb : (f.map k).bounds = some b) (v bv : Var) :
    ∃ g v' bv', f.setBounds n v (some (b, bv)) = .ok g ∧ g.map = f.map ∧ g.tags = f.tags ∧ g.fresh = f.fresh
      ∧ (∀ m, m ≠ n → m ≠ b → g.vars m = f.vars m) ∧ g.vars n = some v' ∧ g.vars b = some bv'
      ∧ v'.obj = v.obj ∧ v'.data = v.data ∧ v'.dims = v.dims ∧ v'.bounds = some b ∧ v'.attrs "bounds" = some b
      ∧ (∀ a, a ≠ "bounds" → v'.attrs a = v.attrs a)
      ∧ bv'.obj = bv.obj ∧ bv'.data = bv.data ∧ bv'.dims = bv.dims
      ∧ (∀ u, v'.attrs "units" = some u → bv'.attrs "units" = some u) := by
  refine ⟨_, { v with bounds := some b, attrs := setAttr v.attrs "bounds" (some b) },
    clobberUnits { v with bounds := some b, attrs := setAttr v.attrs "bounds" (some b) } bv, rfl, ?_⟩
  have h1 : NameOk own ((f.put n { v with bounds := some b, attrs := setAttr v.attrs "bounds" (some b) }).put b
      (clobberUnits { v with bounds := some b, attrs := setAttr v.attrs "bounds" (some b) } bv)) := hn
  have h2 := noteBounds_same h1 ho (b := some b) hb
  rw [h2]
  have hc : ∀ x : Var, (clobberUnits x bv).obj = bv.obj ∧ (clobberUnits x bv).data = bv.data ∧ (clobberUnits x bv).dims = bv.dims
      ∧ ∀ u, x.attrs "units" = some u → (clobberUnits x bv).attrs "units" = some u := by
    intro x
    unfold clobberUnits
    cases x.attrs "units" with
    | none => exact ⟨rfl, rfl, rfl, fun u hu => by cases hu⟩
    | some u => exact ⟨rfl, rfl, rfl, fun u' hu => by cases hu; simp [setAttr]⟩
  refine ⟨rfl, rfl, rfl, ?_, ?_, ?_, rfl, rfl, rfl, rfl, ?_, ?_, (hc _).1, (hc _).2.1, (hc _).2.2.1, (hc _).2.2.2⟩
  · intro m h3 h4
    rw [put_vars, put_vars, if_neg h4, if_neg h3]
  · rw [put_vars, put_vars, if_neg (fun h => hne h.symm), if_pos rfl]
  · rw [put_vars, if_pos rfl]
  · simp [setAttr]
  · intro a ha; simp [setAttr, ha]

/-- The attributes the map holds after the settings. -/
def merged (k : Key) : List Var → Attrs
  | [] => noAttrs
  | v :: rest => fun a => (v.attrs a).or ((defaultAttrs k.str a).or (rest.findSome? fun w => w.attrs a))

theorem or_assoc' {α : Type} (a b c : Option α) : (a.or b).or c = a.or (b.or c) := by cases a <;> rfl

theorem findSome_append (l : List Var) (v : Var) (a : String) :
    (l ++ [v]).findSome? (fun w => w.attrs a) = (l.findSome? fun w => w.attrs a).or (v.attrs a) := by
  induction l with
  | nil => simp [List.findSome?]
  | cons x xs ih =>
    simp only [List.cons_append, List.findSome?]
    cases x.attrs a <;> simp [ih]

theorem merged_append (k : Key) (S : List Var) (v : Var) :
    merged k (S ++ [v]) = updateAttrs (updateAttrs (defaultAttrs k.str) v.attrs) (merged k S) := by
  funext a
  cases S with
  | nil =>
    simp only [List.nil_append, merged, updateAttrs, noAttrs, List.findSome?]
    cases v.attrs a <;> cases defaultAttrs k.str a <;> rfl
  | cons x xs =>
    simp only [List.cons_append, merged, updateAttrs, findSome_append]
    cases x.attrs a <;> cases defaultAttrs k.str a <;> cases (xs.findSome? fun w => w.attrs a) <;> cases v.attrs a <;> rfl

theorem shownAttr_merged (k : Key) {S : List Var} (h : S ≠ []) (a : String) :
    shownAttr k S a = (merged k S a).or (timeDefault k a) := by
  cases S with
  | nil => exact absurd rfl h
  | cons x xs =>
    simp only [shownAttr, merged]
    cases x.attrs a <;> cases defaultAttrs k.str a <;> cases (xs.findSome? fun w => w.attrs a) <;> rfl

/-- The field holds for a key what it was set to. -/
def Holds (own : String → Option Key) (f : Field) (k : Key) (S : List Var) : Option (Incoming × Option (List String)) → Prop
  | none => f.map k = Entry.none ∧ S = []
  | some (i, d) => ∃ v w, i.Sound d v ∧ (∀ p ∈ i.vars, own p.1 = some k)
      ∧ f.map k = ⟨some i.name, v.bounds, d.getD v.dims, merged k S⟩ ∧ S ≠ [] ∧ f.vars i.name = some w
      ∧ w.data = v.data ∧ w.dims = v.dims ∧ w.bounds = v.bounds ∧ (k ≠ .time → w.obj = v.obj)
      ∧ (∀ a, a ≠ "bounds" → merged k S a = none → w.attrs a = none ∨ w.attrs a = timeDefault k a)
      ∧ (∀ b, v.bounds = some b → ∃ bv bw, (b, bv) ∈ i.vars ∧ f.vars b = some bw ∧ bw.data = bv.data
          ∧ bw.dims = bv.dims ∧ (k ≠ .time → bw.obj = bv.obj))

/-- Nothing changes but what belongs to a key. -/
structure Frame (own : String → Option Key) (k : Key) (f g : Field) : Prop where
  vars : ∀ m, own m ≠ some k → g.vars m = f.vars m
  map : ∀ j, j ≠ k → g.map j = f.map j
  tags : g.tags = f.tags

theorem lookup_mem {l : List (String × Var)} {n : String} {v : Var} (h : l.lookup n = some v) : (n, v) ∈ l := by
  induction l with
  | nil => cases h
  | cons p l ih =>
    obtain ⟨m, w⟩ := p
    rw [List.lookup_cons] at h
    cases e : n == m with
    | true =>
      rw [e] at h
      simp only [beq_iff_eq] at e
      injection h with h
      subst e; subst h
      exact List.mem_cons_self
    | false =>
      rw [e] at h
      exact List.mem_cons_of_mem _ (ih h)

theorem Holds.frame {own : String → Option Key} {f g : Field} {k j : Key} {S : List Var} {L}
    (h : Holds own f j S L) (fr : Frame own k f g) (hj : j ≠ k) : Holds own g j S L := by
  cases L with
  | none => exact ⟨(fr.map j hj).trans h.1, h.2⟩
  | some p =>
    obtain ⟨i, d⟩ := p
    obtain ⟨v, w, hs, ho, hm, hS, hw, h1, h2, h3, h4, h5, h6⟩ := h
    have hmain := lookup_mem hs.main
    have hoj : ∀ p ∈ i.vars, own p.1 ≠ some k := by
      intro p hp e
      rw [ho p hp] at e
      cases e; exact hj rfl
    refine ⟨v, w, hs, ho, (fr.map j hj).trans hm, hS, (fr.vars _ (hoj _ hmain)).trans hw, h1, h2, h3, h4, h5, ?_⟩
    intro b hb
    obtain ⟨bv, bw, hbv, hbw, hrest⟩ := h6 b hb
    exact ⟨bv, bw, hbv, (fr.vars _ (hoj _ hbv)).trans hbw, hrest⟩

/-- The invariant of histories. -/
structure Inv (own : String → Option Key) (f : Field) (L : Key → Option (Incoming × Option (List String)))
    (S : Key → List Var) (D : List (String × Var)) : Prop where
  holds : ∀ k, Holds own f k (S k) (L k)
  tags : f.tags = D.map (·.1)
  data : ∀ p ∈ D, own p.1 = none ∧ f.vars p.1 = some p.2

theorem Inv.nameOk {own f L S D} (h : Inv own f L S D) : NameOk own f := by
  intro j m hm
  have := h.holds j
  cases hL : L j with
  | none =>
    rw [hL] at this
    rw [this.1] at hm
    cases hm
  | some p =>
    obtain ⟨i, d⟩ := p
    rw [hL] at this
    obtain ⟨v, w, hs, ho, hmap, _⟩ := this
    rw [hmap] at hm
    cases hm
    exact ho _ (lookup_mem hs.main)

theorem Holds.read_none {own : String → Option Key} {f : Field} {k : Key} {S} (h : Holds own f k S none) : f.read k = .ok (none, f) := by
  have hm := h.1
  have : f.get k = .ok (none, f) := by
    unfold Field.get
    rw [hm]; rfl
  cases k <;> first | exact this | (unfold Field.read Field.time; rw [this]; rfl)

theorem get_holds {own : String → Option Key} {f : Field} (hn : NameOk own f) {k : Key} {S} {i : Incoming} {d}
    (h : Holds own f k S (some (i, d))) :
    ∃ g v w w', f.get k = .ok (some i.name, g) ∧ Frame own k f g ∧ g.map = f.map ∧ g.fresh = f.fresh
      ∧ i.Sound d v ∧ f.vars i.name = some w ∧ g.vars i.name = some w'
      ∧ w'.data = v.data ∧ w'.dims = v.dims ∧ w'.bounds = v.bounds ∧ w'.obj = w.obj
      ∧ (∀ a, a ≠ "bounds" → w'.attrs a = (merged k S a).or (w.attrs a))
      ∧ (∀ b, v.bounds = some b → w'.attrs "bounds" = some b ∧ ∃ bv bw, (b, bv) ∈ i.vars ∧ g.vars b = some bw
          ∧ bw.data = bv.data ∧ bw.dims = bv.dims ∧ (k ≠ .time → bw.obj = bv.obj)
          ∧ ∀ u, w'.attrs "units" = some u → bw.attrs "units" = some u) := by
  obtain ⟨v, w, hs, ho, hm, hS, hw, h1, h2, h3, h4, h5, h6⟩ := h
  have hmem := lookup_mem hs.main
  have hon := ho _ hmem
  simp only at hon
  have hget : f.get k = (do
      let f' ← match v.bounds with
        | none => (.ok (f.put i.name { w with attrs := updateAttrs w.attrs (merged k S) }) : Res Field)
        | some b => f.setBounds i.name { w with attrs := updateAttrs w.attrs (merged k S) } ((f.vars b).map fun bv => (b, bv))
      .ok (some i.name, f')) := by
    unfold Field.get
    rw [hm]
    dsimp only
    rw [hw]
    cases v.bounds <;> rfl
  cases hb : v.bounds with
  | none =>
    rw [hb] at hget
    refine ⟨_, v, w, { w with attrs := updateAttrs w.attrs (merged k S) }, hget, ⟨?_, fun _ _ => rfl, rfl⟩, rfl, rfl, hs, hw, ?_,
      h1, h2, h3, rfl, ?_, ?_⟩
    · intro m hm'
      rw [put_vars, if_neg]
      rintro rfl
      exact hm' hon
    · rw [put_vars, if_pos rfl]
    · intro a _; rfl
    · intro b hb'; rw [hb] at hb'; cases hb'
  | some b =>
    obtain ⟨bv, bw, hbv, hbw, g1, g2, g3⟩ := h6 b hb
    have hob := ho _ hbv
    simp only at hob
    have hne := (hs.bounds b hb).1
    obtain ⟨g, v', bv', e1, e2, e3, e4, e5, e6, e7, e8, e9, e10, e11, e12, e13, e14, e15, e16, e17⟩ :=
      setBounds_some hn hon hne (by rw [hm]; exact hb) { w with attrs := updateAttrs w.attrs (merged k S) } bw
    rw [hb] at hget
    simp only [hbw, Option.map_some] at hget
    rw [e1] at hget
    refine ⟨g, v, w, v', hget, ⟨?_, fun j _ => by rw [e2], e3⟩, e2, e4, hs, hw, e6, e9.trans h1, e10.trans h2,
      by rw [e11, hb], e8, ?_, ?_⟩
    · intro m hm'
      apply e5
      · rintro rfl; exact hm' hon
      · rintro rfl; exact hm' hob
    · intro a ha
      rw [e13 a ha]; rfl
    · intro b' hb'
      rw [hb] at hb'
      cases hb'
      exact ⟨e12, bv, bv', hbv, e7, e15.trans g1, e16.trans g2, fun hk => e14.trans (g3 hk), e17⟩

/-- What reading a key does. -/
theorem read_holds {own : String → Option Key} {f : Field} (hn : NameOk own f) {k : Key} {S} {i : Incoming} {d}
    (h : Holds own f k S (some (i, d))) :
    ∃ g w', f.read k = .ok (some i.name, g) ∧ Frame own k f g ∧ Holds own g k S (some (i, d)) ∧ Shows f k (some (i, d))
      ∧ g.vars i.name = some w' ∧ ∀ a, a ≠ "bounds" → w'.attrs a = shownAttr k S a := by
  obtain ⟨v₀, w₀, hs₀, ho, hm, hS, hw₀, j1, j2, j3, j4, j5, j6⟩ := h
  obtain ⟨g, v, w, w', h1, h2, h3, h3f, hs, h4, h5, h6, h7, h8, h9, h10, h11⟩ :=
    get_holds hn ⟨v₀, w₀, hs₀, ho, hm, hS, hw₀, j1, j2, j3, j4, j5, j6⟩
  have ev : v = v₀ := by have := hs.main.symm.trans hs₀.main; cases this; rfl
  subst ev
  have ew : w = w₀ := by have := h4.symm.trans hw₀; cases this; rfl
  subst ew
  have hmem := lookup_mem hs.main
  have hon := ho _ hmem
  simp only at hon
  by_cases hk : k = .time
  · subst hk
    -- the attributes of the new object
    have hat : ∀ a, a ≠ "bounds" → timeAttrs w'.attrs a = shownAttr .time S a := by
      intro a ha
      rw [shownAttr_merged _ hS]
      have e := h10 a ha
      unfold timeAttrs setAttr timeDefault
      by_cases hu : a = "units"
      · subst hu
        simp only [if_true]
        rw [if_neg (by decide : ¬("units" = "calendar")), e]
        cases hmm : merged .time S "units" with
        | some x => rfl
        | none =>
          rcases j5 "units" ha hmm with x | x
          · rw [x]; rfl
          · rw [x]; rfl
      · by_cases hc : a = "calendar"
        · subst hc
          rw [if_neg hu, if_pos rfl, e]
          cases hmm : merged .time S "calendar" with
          | some x => rfl
          | none =>
            rcases j5 "calendar" ha hmm with x | x
            · rw [x]; rfl
            · rw [x]; rfl
        · rw [if_neg hu, if_neg hc, e]
          simp only [hu, hc, and_false, if_false, Option.or_none]
          cases hmm : merged .time S a with
          | some x => rfl
          | none =>
            rcases j5 a ha hmm with x | x
            · rw [x]; rfl
            · rw [x]; simp [timeDefault, hu, hc]
    have hread : f.read .time = (g.fromVariable i.name w').map fun g' => (some i.name, g') := by
      show f.time = _
      unfold Field.time
      rw [h1]
      show (match g.vars i.name with | none => _ | some v => _) = _
      rw [h5]
      show (g.fromVariable i.name w' >>= _) = _
      cases g.fromVariable i.name w' <;> rfl
    cases hb : v.bounds with
    | none =>
      have hwb : w'.bounds = none := by rw [h8, hb]
      unfold Field.fromVariable at hread
      simp only [hwb] at hread
      refine ⟨_, { w' with obj := g.fresh + 1, attrs := timeAttrs w'.attrs, bounds := none }, hread, ⟨?_, ?_, ?_⟩, ?_, ?_, ?_, hat⟩
      · intro m hm'
        show (g.put _ _).vars m = _
        rw [put_vars, if_neg]
        · exact h2.vars m hm'
        · rintro rfl; exact hm' hon
      · intro j hj; exact h2.map j hj
      · exact h2.tags
      · refine ⟨v, { w' with obj := g.fresh + 1, attrs := timeAttrs w'.attrs, bounds := none }, hs, ho, ?_, hS, ?_, h6, h7, hb.symm, fun h => absurd rfl h, ?_, ?_⟩
        · show g.map .time = _
          rw [h3]; exact hm
        · show (g.put _ _).vars _ = _
          rw [put_vars, if_pos rfl]
        · intro a ha hmm
          right
          show timeAttrs w'.attrs a = _
          rw [hat a ha, shownAttr_merged _ hS, hmm]; rfl
        · intro b hb'; rw [hb] at hb'; cases hb'
      · refine ⟨_, v, { w' with obj := g.fresh + 1, attrs := timeAttrs w'.attrs, bounds := none }, hread, hs.main, ?_, h6, h7, hb.symm, fun h => absurd rfl h, ?_, ?_⟩
        · show (g.put _ _).vars _ = _
          rw [put_vars, if_pos rfl]
        · intro b hb'; rw [hb] at hb'; cases hb'
        · show (g.map .time).dimension = _
          rw [h3, hm]
      · show (g.put _ _).vars _ = _
        rw [put_vars, if_pos rfl]
    | some b =>
      have hwb : w'.bounds = some b := by rw [h8, hb]
      obtain ⟨hba, bv, bw, hbv, hbw, k1, k2, k3, k4⟩ := h11 b hb
      unfold Field.fromVariable at hread
      simp only [hwb, hbw] at hread
      have hob := ho _ hbv
      simp only at hob
      have hne := (hs.bounds b hb).1
      have hn' : NameOk own g := by
        intro j m hm'; rw [h3] at hm'; exact hn j m hm'
      obtain ⟨g', v', bv', e1, e2, e3, e4, e5, e6, e7, e8, e9, e10, e11, e12, e13, e14, e15, e16, e17⟩ :=
        setBounds_some hn' hon hne (by rw [h3, hm]; exact hb) { w' with obj := g.fresh + 1, attrs := timeAttrs w'.attrs, bounds := some b }
          { bw with obj := g.fresh, attrs := setAttr (timeAttrs bw.attrs) "calendar" (timeAttrs w'.attrs "calendar") }
      rw [e1] at hread
      replace hread : f.read .time = .ok (some i.name, { g' with fresh := g.fresh + 2 }) := hread
      have hat' : ∀ a, a ≠ "bounds" → v'.attrs a = shownAttr .time S a := by
        intro a ha
        rw [e13 a ha]; exact hat a ha
      refine ⟨_, v', hread, ⟨?_, ?_, ?_⟩, ?_, ?_, e6, hat'⟩
      · intro m hm'
        show g'.vars m = _
        rw [e5 m (by rintro rfl; exact hm' hon) (by rintro rfl; exact hm' hob)]
        exact h2.vars m hm'
      · intro j hj
        show g'.map j = _
        rw [e2]; exact h2.map j hj
      · exact e3.trans h2.tags
      · refine ⟨v, v', hs, ho, ?_, hS, e6, e9.trans h6, e10.trans h7, e11.trans hb.symm, fun h => absurd rfl h, ?_, ?_⟩
        · show g'.map .time = _
          rw [e2, h3]; exact hm
        · intro a ha hmm
          right
          rw [hat' a ha, shownAttr_merged _ hS, hmm]; rfl
        · intro b' hb'
          rw [hb] at hb'; cases hb'
          exact ⟨bv, bv', hbv, e7, e15.trans k1, e16.trans k2, fun h => absurd rfl h⟩
      · refine ⟨_, v, v', hread, hs.main, e6, e9.trans h6, e10.trans h7, e11.trans hb.symm, fun h => absurd rfl h, ?_, ?_⟩
        · intro b' hb'
          rw [hb] at hb'; cases hb'
          exact ⟨e12, bv, bv', hbv, e7, e15.trans k1, e16.trans k2, fun h => absurd rfl h, e17⟩
        · show (g'.map .time).dimension = _
          rw [e2, h3, hm]
  · have hread : f.read k = .ok (some i.name, g) := by
      cases k <;> first | exact h1 | exact absurd rfl hk
    have hat : ∀ a, a ≠ "bounds" → w'.attrs a = shownAttr k S a := by
      intro a ha
      rw [shownAttr_merged _ hS, h10 a ha]
      have : timeDefault k a = none := by simp [timeDefault, hk]
      rw [this]
      cases hmm : merged k S a with
      | some x => rfl
      | none =>
        rcases j5 a ha hmm with x | x
        · rw [x]
        · rw [x, this]
    refine ⟨g, w', hread, h2, ?_, ?_, h5, hat⟩
    · refine ⟨v, w', hs, ho, by rw [h3]; exact hm, hS, h5, h6, h7, h8, fun hk => h9.trans (j4 hk), ?_, ?_⟩
      · intro a ha hmm
        right
        rw [hat a ha, shownAttr_merged _ hS, hmm]; rfl
      · intro b hb
        obtain ⟨_, bv, bw, q1, q2, q3, q4, q5, _⟩ := h11 b hb
        exact ⟨bv, bw, q1, q2, q3, q4, q5⟩
    · exact ⟨g, v, w', hread, hs.main, h5, h6, h7, h8, fun hk => h9.trans (j4 hk), h11, by rw [h3, hm]⟩

theorem foldPut_keep (l : List (String × Var)) (f : Field) :
    (l.foldl (fun f p => f.put p.1 p.2) f).map = f.map ∧ (l.foldl (fun f p => f.put p.1 p.2) f).tags = f.tags
    ∧ ∀ m, (∀ p ∈ l, p.1 ≠ m) → (l.foldl (fun f p => f.put p.1 p.2) f).vars m = f.vars m := by
  induction l generalizing f with
  | nil => exact ⟨rfl, rfl, fun _ _ => rfl⟩
  | cons p l ih =>
    obtain ⟨h1, h2, h3⟩ := ih (f.put p.1 p.2)
    refine ⟨h1, h2, fun m hm => (h3 m fun q hq => hm q (List.mem_cons_of_mem _ hq)).trans ?_⟩
    rw [put_vars, if_neg]
    rintro rfl
    exact hm p List.mem_cons_self rfl

theorem foldPut_mem (l : List (String × Var)) (f : Field) (hnd : (l.map (·.1)).Nodup) :
    ∀ p ∈ l, (l.foldl (fun f p => f.put p.1 p.2) f).vars p.1 = some p.2 := by
  induction l generalizing f with
  | nil => intro p hp; cases hp
  | cons q l ih =>
    intro p hp
    rw [List.map_cons, List.nodup_cons] at hnd
    rcases List.mem_cons.mp hp with rfl | hp
    · refine ((foldPut_keep l (f.put p.1 p.2)).2.2 p.1 ?_).trans (by rw [put_vars, if_pos rfl])
      intro q hq e
      exact hnd.1 (e ▸ List.mem_map_of_mem hq)
    · exact ih _ hnd.2 p hp

theorem pop_ok {f : Field} {n : String} {v : Var} (h : f.vars n = some v) :
    f.pop n = .ok { f with vars := fun m => if m = n then none else f.vars m } := by
  unfold Field.pop
  rw [h]

theorem filter_ne {l : List String} {m : String} (h : m ∉ l) : l.filter (· ≠ m) = l := by
  rw [List.filter_eq_self]
  intro a ha
  simp only [decide_eq_true_eq]
  rintro rfl
  exact h ha

theorem drop_ok {f : Field} {n : String} {v : Var} (h : f.vars n = some v) (ht : n ∉ f.tags) :
    f.drop n = .ok { f with vars := fun m => if m = n then none else f.vars m } := by
  unfold Field.drop
  rw [filter_ne ht]
  exact pop_ok h

/-- Removing the variable of a key. -/
theorem remove_holds {own : String → Option Key} {f : Field} {k : Key} {S} {i : Incoming} {d}
    (h : Holds own f k S (some (i, d))) (ht : ∀ t ∈ f.tags, own t = none) :
    ∃ g, f.remove i.name = .ok g ∧ Frame own k f g ∧ g.map = f.map ∧ g.vars i.name = none
      ∧ ∀ v b, i.main = some v → v.bounds = some b → g.vars b = none := by
  obtain ⟨v, w, hs, ho, hm, hS, hw, h1, h2, h3, h4, h5, h6⟩ := h
  have hon := ho _ (lookup_mem hs.main)
  simp only at hon
  have nt : ∀ m, own m = some k → m ∉ f.tags := by
    intro m hm' ht'
    have := ht m ht'
    rw [hm'] at this; cases this
  unfold Field.remove
  rw [hw]
  dsimp only
  rw [h3]
  cases hb : v.bounds with
  | none =>
    refine ⟨_, drop_ok hw (nt _ hon), ⟨?_, fun _ _ => rfl, rfl⟩, rfl, ?_, ?_⟩
    · intro m hm'
      show (if m = i.name then none else f.vars m) = _
      rw [if_neg]
      rintro rfl; exact hm' hon
    · show (if i.name = i.name then none else f.vars i.name) = _
      rw [if_pos rfl]
    · intro v' b hv' hb'
      rw [hs.main] at hv'; cases hv'
      rw [hb] at hb'; cases hb'
  | some b =>
    obtain ⟨bv, bw, hbv, hbw, _⟩ := h6 b hb
    have hob := ho _ hbv
    simp only at hob
    have hne := (hs.bounds b hb).1
    dsimp only
    rw [hbw, drop_ok hw (nt _ hon)]
    simp only [Option.isSome_some, if_true, Except.bind]
    refine ⟨_, drop_ok (v := bw) ?_ (nt _ hob), ⟨?_, fun _ _ => rfl, rfl⟩, rfl, ?_, ?_⟩
    · show (if b = i.name then none else f.vars b) = _
      rw [if_neg hne, hbw]
    · intro m hm'
      show (if m = b then none else if m = i.name then none else f.vars m) = _
      rw [if_neg, if_neg]
      · rintro rfl; exact hm' hon
      · rintro rfl; exact hm' hob
    · show (if i.name = b then none else if i.name = i.name then none else f.vars i.name) = _
      rw [if_neg (Ne.symm hne), if_pos rfl]
    · intro v' b' hv' hb'
      rw [hs.main] at hv'; cases hv'
      rw [hb] at hb'; cases hb'
      show (if b = b then none else _) = _
      rw [if_pos rfl]

theorem recorded_ok {v : Var} {d : Option (List String)} (h : d.isSome ∨ v.dims.length ≤ 1) : recorded v d = .ok (d.getD v.dims) := by
  cases d with
  | some d => rfl
  | none =>
    have h : v.dims.length ≤ 1 := by
      rcases h with h | h
      · cases h
      · exact h
    unfold recorded
    cases hd : v.dims with
    | nil => rfl
    | cons a l =>
      cases l with
      | nil => rfl
      | cons b l => rw [hd] at h; simp at h

/-- The first part of a setter. -/
theorem cleared {own : String → Option Key} {f : Field} {L S D} (h : Inv own f L S D) (k : Key) (o : Option Nat) :
    ∃ g, f.clear k o = .ok g ∧ Frame own k f g ∧ g.map = f.map := by
  unfold Field.clear
  have ht : ∀ t ∈ f.tags, own t = none := by
    intro t ht
    rw [h.tags] at ht
    obtain ⟨p, hp, rfl⟩ := List.mem_map.mp ht
    exact (h.data p hp).1
  have hk := h.holds k
  cases hL : L k with
  | none =>
    rw [hL] at hk
    rw [hk.1]
    exact ⟨f, rfl, ⟨fun _ _ => rfl, fun _ _ => rfl, rfl⟩, rfl⟩
  | some p =>
    obtain ⟨i, d⟩ := p
    rw [hL] at hk
    obtain ⟨g, hg, fr, hm, _⟩ := remove_holds hk ht
    obtain ⟨v, w, hs, ho, hmap, hS, hw, _⟩ := hk
    rw [hmap]
    dsimp only
    rw [hw]
    dsimp only
    split
    · exact ⟨f, rfl, ⟨fun _ _ => rfl, fun _ _ => rfl, rfl⟩, rfl⟩
    · exact ⟨g, hg, fr, hm⟩

theorem Inv.frame {own : String → Option Key} {f g : Field} {L S D} (h : Inv own f L S D) {k : Key} (fr : Frame own k f g)
    {Lk : Option (Incoming × Option (List String))} {Sk : List Var} (hk : Holds own g k Sk Lk) :
    Inv own g (fun j => if j = k then Lk else L j) (fun j => if j = k then Sk else S j) D := by
  refine ⟨?_, fr.tags.trans h.tags, ?_⟩
  · intro j
    by_cases hj : j = k
    · subst hj; simpa using hk
    · simpa [hj] using (h.holds j).frame fr hj
  · intro p hp
    obtain ⟨h1, h2⟩ := h.data p hp
    refine ⟨h1, (fr.vars _ ?_).trans h2⟩
    rw [h1]; exact fun e => by cases e

theorem Frame.trans {own k} {f g e : Field} (h : Frame own k f g) (h' : Frame own k g e) : Frame own k f e :=
  ⟨fun m hm => (h'.vars m hm).trans (h.vars m hm), fun j hj => (h'.map j hj).trans (h.map j hj), h'.tags.trans h.tags⟩

theorem set_none_inv {own : String → Option Key} {f : Field} {L S D} (h : Inv own f L S D) (k : Key) (d) :
    ∃ g, f.set k none d = .ok g
      ∧ Inv own g (fun j => if j = k then none else L j) (fun j => if j = k then [] else S j) D := by
  obtain ⟨g, hg, fr, hm⟩ := cleared h k (((none : Option Arg).bind (Arg.var f)).map (·.2.obj))
  refine ⟨g.enter k .none, ?_, ?_⟩
  · unfold Field.set
    rw [hg]; rfl
  · refine h.frame (k := k) (g := g.enter k .none) (Lk := none) (Sk := []) ⟨fr.vars, ?_, fr.tags⟩ ⟨?_, rfl⟩
    · intro j hj
      show (if j = k then _ else g.map j) = _
      rw [if_neg hj]; exact fr.map j hj
    · show (if k = k then _ else g.map k) = _
      rw [if_pos rfl]

theorem set_some_inv {own : String → Option Key} {f : Field} {L S D} (h : Inv own f L S D) (k : Key) (i : Incoming) (d)
    {v : Var} (hs : i.Sound d v) (ho : ∀ p ∈ i.vars, own p.1 = some k) :
    ∃ g, f.set k (some (.other i)) d = .ok g
      ∧ Inv own g (fun j => if j = k then some (i, d) else L j) (fun j => if j = k then S k ++ [v] else S j) D := by
  obtain ⟨g, hg, fr, hm⟩ := cleared h k (((some (Arg.other i)).bind (Arg.var f)).map (·.2.obj))
  obtain ⟨a1, a2, a3⟩ := foldPut_keep i.vars g
  have a4 := foldPut_mem i.vars g hs.names
  have hadd : g.add (.other i) = i.vars.foldl (fun f p => f.put p.1 p.2) g := rfl
  rw [← hadd] at a1 a2 a3 a4
  have hmem := lookup_mem hs.main
  have hbd : (v.bounds.any fun b => ((g.add (.other i)).vars b).isNone) = false := by
    cases hb : v.bounds with
    | none => rfl
    | some b =>
      obtain ⟨_, bv, hbv⟩ := hs.bounds b hb
      simp only [Option.any_some]
      rw [a4 _ hbv]; rfl
  have hmapk : (f.map k).attrs = merged k (S k) := by
    have hk := h.holds k
    cases hL : L k with
    | none =>
      rw [hL] at hk
      rw [hk.1, hk.2]; rfl
    | some p =>
      obtain ⟨i', d'⟩ := p
      rw [hL] at hk
      obtain ⟨v', w', _, _, hmap, _⟩ := hk
      rw [hmap]
  have hset : f.set k (some (.other i)) d = .ok ((g.add (.other i)).enter k ⟨some i.name, v.bounds, d.getD v.dims, merged k (S k ++ [v])⟩) := by
    unfold Field.set
    rw [hg]
    show (match (Arg.other i).var f with | none => _ | some (n, v) => _) = _
    have : (Arg.other i).var f = some (i.name, v) := by
      show i.main.map _ = _
      rw [hs.main]; rfl
    rw [this]
    show (g.add (.other i)).setVariable k i.name v d = _
    unfold Field.setVariable
    rw [hbd, recorded_ok hs.dimension, a1, hm, hmapk, merged_append]
    rfl
  refine ⟨_, hset, h.frame (k := k) (Lk := some (i, d)) (Sk := S k ++ [v]) ⟨?_, ?_, ?_⟩ ?_⟩
  · intro m hm'
    show (g.add (.other i)).vars m = _
    rw [a3]
    · exact fr.vars m hm'
    · rintro p hp rfl
      exact hm' (ho p hp)
  · intro j hj
    show (if j = k then _ else (g.add (.other i)).map j) = _
    rw [if_neg hj, a1]; exact fr.map j hj
  · exact a2.trans fr.tags
  · refine ⟨v, v, hs, ho, ?_, by simp, a4 _ hmem, rfl, rfl, rfl, fun _ => rfl, ?_, ?_⟩
    · show (if k = k then _ else (g.add (.other i)).map k) = _
      rw [if_pos rfl]
    · intro a _ hmm
      left
      rw [merged_append] at hmm
      unfold updateAttrs at hmm
      cases hv : v.attrs a with
      | none => rfl
      | some x =>
        rw [hv] at hmm
        cases hq : merged k (S k) a <;> rw [hq] at hmm <;> cases hmm
    · intro b hb
      obtain ⟨_, bv, hbv⟩ := hs.bounds b hb
      exact ⟨bv, bv, hbv, a4 _ hbv, rfl, rfl, fun _ => rfl⟩

theorem read_inv {own : String → Option Key} {f : Field} {L S D} (h : Inv own f L S D) (k : Key) :
    ∃ r g, f.read k = .ok (r, g) ∧ Inv own g L S D := by
  have hk := h.holds k
  cases hL : L k with
  | none =>
    rw [hL] at hk
    exact ⟨none, f, hk.read_none, h⟩
  | some p =>
    obtain ⟨i, d⟩ := p
    rw [hL] at hk
    obtain ⟨g, w', hr, fr, hg, _⟩ := read_holds h.nameOk hk
    refine ⟨_, g, hr, ?_⟩
    have := h.frame fr hg
    have e1 : (fun j => if j = k then some (i, d) else L j) = L := by
      funext j
      by_cases hj : j = k
      · subst hj; simp [hL]
      · simp [hj]
    have e2 : (fun j => if j = k then S k else S j) = S := by
      funext j
      by_cases hj : j = k
      · subst hj; simp
      · simp [hj]
    rw [e1, e2] at this
    exact this

theorem addData_inv {own : String → Option Key} {f : Field} {L S D} (h : Inv own f L S D) {n : String} (hn : own n = none) (v : Var) :
    Inv own (f.addData ⟨n, [(n, v)]⟩) L S
      (if n ∈ D.map (·.1) then D.map (fun q => if q.1 = n then (n, v) else q) else D ++ [(n, v)]) := by
  have hput : f.addData ⟨n, [(n, v)]⟩ = if n ∈ D.map (·.1) then f.put n v else { f.put n v with tags := f.tags ++ [n] } := by
    unfold Field.addData
    show (if n ∈ f.tags.filter (fun m => ((f.put n v).vars m).isSome) then f.put n v else _) = _
    have : n ∈ f.tags.filter (fun m => ((f.put n v).vars m).isSome) ↔ n ∈ D.map (·.1) := by
      rw [List.mem_filter, h.tags]
      constructor
      · exact fun x => x.1
      · intro x
        refine ⟨x, ?_⟩
        rw [put_vars, if_pos rfl]; rfl
    by_cases hin : n ∈ D.map (·.1)
    · rw [if_pos (this.mpr hin), if_pos hin]
    · rw [if_neg (fun x => hin (this.mp x)), if_neg hin]; rfl
  have hv : ∀ m, (f.addData ⟨n, [(n, v)]⟩).vars m = if m = n then some v else f.vars m := by
    intro m
    rw [hput]
    split <;> rfl
  have hm : (f.addData ⟨n, [(n, v)]⟩).map = f.map := by
    rw [hput]
    split <;> rfl
  refine ⟨?_, ?_, ?_⟩
  · intro k
    have hk := h.holds k
    cases hL : L k with
    | none =>
      rw [hL] at hk
      exact ⟨by rw [hm]; exact hk.1, hk.2⟩
    | some p =>
      obtain ⟨i, d⟩ := p
      rw [hL] at hk
      obtain ⟨v', w, hs, ho, hmap, hS, hw, h1, h2, h3, h4, h5, h6⟩ := hk
      have keep : ∀ p ∈ i.vars, (f.addData ⟨n, [(n, v)]⟩).vars p.1 = f.vars p.1 := by
        intro p hp
        rw [hv, if_neg]
        intro e
        have := ho p hp
        rw [e, hn] at this; cases this
      refine ⟨v', w, hs, ho, by rw [hm]; exact hmap, hS, (keep _ (lookup_mem hs.main)).trans hw, h1, h2, h3, h4, h5, ?_⟩
      intro b hb
      obtain ⟨bv, bw, q1, q2, q3⟩ := h6 b hb
      exact ⟨bv, bw, q1, (keep _ q1).trans q2, q3⟩
  · rw [hput]
    by_cases hin : n ∈ D.map (·.1)
    · rw [if_pos hin, if_pos hin]
      show f.tags = _
      rw [h.tags, List.map_map]
      apply List.map_congr_left
      intro q hq
      by_cases e : q.1 = n
      · simp [e]
      · simp [e]
    · rw [if_neg hin, if_neg hin]
      show f.tags ++ [n] = _
      rw [h.tags]; simp
  · intro p hp
    by_cases hin : n ∈ D.map (·.1)
    · rw [if_pos hin] at hp
      obtain ⟨q, hq, rfl⟩ := List.mem_map.mp hp
      by_cases e : q.1 = n
      · simp only [e, if_true]
        exact ⟨hn, by rw [hv, if_pos rfl]⟩
      · simp only [e, if_false]
        exact ⟨(h.data q hq).1, by rw [hv, if_neg e]; exact (h.data q hq).2⟩
    · rw [if_neg hin] at hp
      rcases List.mem_append.mp hp with hp | hp
      · refine ⟨(h.data p hp).1, ?_⟩
        rw [hv, if_neg]
        · exact (h.data p hp).2
        · intro e
          exact hin (e ▸ List.mem_map_of_mem hp)
      · rw [List.mem_singleton] at hp
        subst hp
        exact ⟨hn, by rw [hv, if_pos rfl]⟩

/-- Histories keep the invariant. -/
theorem run_inv {own : String → Option Key} (ops : List Op) : ∀ {f : Field} {L S D}, Inv own f L S D → (∀ o ∈ ops, Apart own o) →
    ∃ g, f.run ops = .ok g ∧ Inv own g (fun k => if ops.any (Op.sets k) then lastSet k ops else L k)
      (fun k => settings k (S k) ops) (dataOf D ops) := by
  induction ops with
  | nil => intro f L S D h _; exact ⟨f, rfl, by simpa [settings, dataOf] using h⟩
  | cons o os ih =>
    intro f L S D h hap
    have ha := hap o List.mem_cons_self
    have hos : ∀ o ∈ os, Apart own o := fun x hx => hap x (List.mem_cons_of_mem _ hx)
    have fin : ∀ {g : Field} {L' S' D'}, f.step o = .ok g → Inv own g L' S' D' →
        (∀ k, (if o.sets k then lastSet k [o] else L k) = L' k) → (∀ k, settings k (S k) (o :: os) = settings k (S' k) os) →
        dataOf D (o :: os) = dataOf D' os →
        ∃ g, f.run (o :: os) = .ok g ∧ Inv own g (fun k => if (o :: os).any (Op.sets k) then lastSet k (o :: os) else L k)
          (fun k => settings k (S k) (o :: os)) (dataOf D (o :: os)) := by
      intro g L' S' D' hstep hinv hL hS hD
      obtain ⟨e, he, hi⟩ := ih hinv hos
      refine ⟨e, ?_, ?_⟩
      · show (f.step o >>= fun f => f.run os) = _
        rw [hstep]; exact he
      · have : (fun k => if (o :: os).any (Op.sets k) then lastSet k (o :: os) else L k)
            = fun k => if os.any (Op.sets k) then lastSet k os else L' k := by
          funext k
          rw [← hL k]
          by_cases hany : os.any (Op.sets k) = true
          · simp only [List.any_cons, hany, Bool.or_true, if_true, lastSet]
          · simp only [Bool.not_eq_true] at hany
            simp only [List.any_cons, hany, Bool.or_false, lastSet, List.any_nil, Bool.false_eq_true, if_false]
        rw [this, funext hS, hD]
        exact hi
    cases o with
    | set k a d =>
      cases a with
      | none =>
        obtain ⟨g, hg, hi⟩ := set_none_inv h k d
        refine fin hg hi ?_ ?_ rfl
        · intro j
          by_cases hj : j = k
          · subst hj; simp [Op.sets, lastSet]
          · simp [Op.sets, hj, Ne.symm hj]
        · intro j
          by_cases hj : j = k
          · subst hj; simp [settings]
          · simp [settings, hj, Ne.symm hj]
      | some i =>
        obtain ⟨⟨v, hs⟩, ho⟩ := ha
        obtain ⟨g, hg, hi⟩ := set_some_inv h k i d hs ho
        refine fin hg hi ?_ ?_ rfl
        · intro j
          by_cases hj : j = k
          · subst hj; simp [Op.sets, lastSet]
          · simp [Op.sets, hj, Ne.symm hj]
        · intro j
          by_cases hj : j = k
          · subst hj; simp [settings, hs.main]
          · simp [settings, hj, Ne.symm hj]
    | read k =>
      obtain ⟨r, g, hg, hi⟩ := read_inv h k
      refine fin (g := g) ?_ hi (fun _ => rfl) (fun _ => rfl) rfl
      show (f.read k).map _ = _
      rw [hg]; rfl
    | addData n v =>
      exact fin rfl (addData_inv h ha v) (fun _ => rfl) (fun _ => rfl) rfl

theorem empty_inv (own : String → Option Key) (n : Nat) : Inv own (Field.empty n) (fun _ => none) (fun _ => []) [] :=
  ⟨fun _ => ⟨rfl, rfl⟩, rfl, fun p hp => by cases hp⟩

theorem Inv.shows {own : String → Option Key} {f : Field} {L S D} (h : Inv own f L S D) (k : Key) : Shows f k (L k) := by
  have hk := h.holds k
  cases hL : L k with
  | none =>
    rw [hL] at hk
    exact ⟨f, hk.read_none⟩
  | some p =>
    obtain ⟨i, d⟩ := p
    rw [hL] at hk
    obtain ⟨_, _, _, _, _, hsh, _⟩ := read_holds h.nameOk hk
    exact hsh

theorem Inv.dataVariables' {f : Field} {D : List (String × Var)} (ht : f.tags = D.map (·.1)) (hd : ∀ p ∈ D, f.vars p.1 = some p.2) :
    f.dataVariables = D := by
  unfold Field.dataVariables
  rw [ht]
  clear ht
  induction D with
  | nil => rfl
  | cons p D ih =>
    rw [List.map_cons, List.filterMap_cons, hd p List.mem_cons_self, ih fun q hq => hd q (List.mem_cons_of_mem _ hq)]
    rfl

theorem Inv.dataVariables {own : String → Option Key} {f : Field} {L S D} (h : Inv own f L S D) : f.dataVariables = D :=
  Inv.dataVariables' h.tags fun p hp => (h.data p hp).2

theorem lastSet_any {k : Key} {ops : List Op} : (if ops.any (Op.sets k) then lastSet k ops else none) = lastSet k ops := by
  cases ops with
  | nil => rfl
  | cons o os =>
    split
    · rfl
    · rename_i h
      simp only [Bool.not_eq_true, List.any_cons, Bool.or_eq_false_iff] at h
      simp only [lastSet, h.2, Bool.false_eq_true, if_false]
      cases o with
      | set j a d =>
        have : ¬ j = k := by simpa [Op.sets] using h.1
        simp [this]
      | read _ => rfl
      | addData _ _ => rfl

/-- Setting a key to the variable it has already. -/
theorem set_own {own : String → Option Key} {f : Field} {L S D} (h : Inv own f L S D) {k : Key} {i : Incoming} {d}
    (hL : L k = some (i, d)) {d' : Option (List String)} {v : Var} (hv : i.main = some v) (hd : d'.isSome ∨ v.dims.length ≤ 1) :
    ∃ g, f.set k (some (.own i.name)) d' = .ok g ∧ Shows g k (some (i, d')) ∧ (∀ j, j ≠ k → Shows g j (L j)) ∧ g.dataVariables = D := by
  have hk := h.holds k
  rw [hL] at hk
  obtain ⟨v', w, hs, ho, hmap, hS, hw, h1, h2, h3, h4, h5, h6⟩ := hk
  have : v' = v := by have := hs.main.symm.trans hv; cases this; rfl
  subst this
  have harg : (Arg.own i.name).var f = some (i.name, w) := by
    show (f.vars i.name).map _ = _
    rw [hw]; rfl
  have hbd : (w.bounds.any fun b => (f.vars b).isNone) = false := by
    rw [h3]
    cases hb : v'.bounds with
    | none => rfl
    | some b =>
      obtain ⟨bv, bw, _, q2, _⟩ := h6 b hb
      simp only [Option.any_some]
      rw [q2]; rfl
  have hset : f.set k (some (.own i.name)) d' = .ok (f.enter k ⟨some i.name, w.bounds, d'.getD w.dims, merged k (S k ++ [w])⟩) := by
    unfold Field.set
    have hc : f.clear k (((some (Arg.own i.name)).bind (Arg.var f)).map (·.2.obj)) = .ok f := by
      unfold Field.clear
      rw [hmap]
      dsimp only
      rw [hw]
      simp only [Option.bind_some, harg, Option.map_some, if_true]
    rw [hc]
    show (match (Arg.own i.name).var f with | none => _ | some (n, v) => _) = _
    rw [harg]
    show f.setVariable k i.name w d' = _
    unfold Field.setVariable
    rw [hbd, recorded_ok (h2 ▸ hd), hmap, merged_append]
    rfl
  have hi : Inv own (f.enter k ⟨some i.name, w.bounds, d'.getD w.dims, merged k (S k ++ [w])⟩) (fun j => if j = k then some (i, d') else L j)
      (fun j => if j = k then S k ++ [w] else S j) D := by
    refine h.frame (g := f.enter k ⟨some i.name, w.bounds, d'.getD w.dims, merged k (S k ++ [w])⟩) (k := k) (Lk := some (i, d'))
      (Sk := S k ++ [w]) ⟨fun _ _ => rfl, ?_, rfl⟩ ?_
    · intro j hj
      show (if j = k then _ else f.map j) = _
      rw [if_neg hj]
    · refine ⟨v', w, ⟨hs.main, hs.names, hs.bounds, hd⟩, ho, ?_, by simp, hw, h1, h2, h3, h4, ?_, h6⟩
      · show (if k = k then _ else f.map k) = _
        rw [if_pos rfl, h3, h2]
      · intro a _ hmm
        left
        rw [merged_append] at hmm
        unfold updateAttrs at hmm
        cases hv : w.attrs a with
        | none => rfl
        | some x =>
          rw [hv] at hmm
          cases hq : merged k (S k) a <;> rw [hq] at hmm <;> cases hmm
  refine ⟨_, hset, ?_, ?_, hi.dataVariables⟩
  · have := hi.shows k
    simpa using this
  · intro j hj
    have := hi.shows j
    simpa [hj] using this

/-- The variable a key had before is no longer in the field. -/
theorem set_gone {own : String → Option Key} {f : Field} {L S D} (h : Inv own f L S D) {k : Key} {i : Incoming} {d}
    (hL : L k = some (i, d)) {a : Option Incoming} {d' : Option (List String)} {g : Field}
    (hg : f.set k (a.map .other) d' = .ok g)
    (ho : ∀ j v w, a = some j → j.main = some v → f.vars i.name = some w → w.obj ≠ v.obj) :
    ∀ m, (∀ j, a = some j → ∀ p ∈ j.vars, p.1 ≠ m) → (m = i.name ∨ ∃ v, i.main = some v ∧ v.bounds = some m) → g.vars m = none := by
  have ht : ∀ t ∈ f.tags, own t = none := by
    intro t ht
    rw [h.tags] at ht
    obtain ⟨p, hp, rfl⟩ := List.mem_map.mp ht
    exact (h.data p hp).1
  have hk := h.holds k
  rw [hL] at hk
  obtain ⟨e, he, _, _, e1, e2⟩ := remove_holds hk ht
  obtain ⟨v, w, hs, _, hmap, hS, hw, _⟩ := hk
  intro m hm hmi
  have em : e.vars m = none := by
    rcases hmi with rfl | ⟨v, h1, h2⟩
    · exact e1
    · exact e2 v m h1 h2
  have hcl : f.clear k (((a.map Arg.other).bind (Arg.var f)).map (·.2.obj)) = .ok e := by
    unfold Field.clear
    rw [hmap]
    dsimp only
    rw [hw]
    dsimp only
    rw [if_neg]
    · exact he
    · cases a with
      | none => intro x; cases x
      | some j =>
        intro x
        cases hj : j.main with
        | none => simp [Arg.var, hj] at x
        | some v' =>
          simp [Arg.var, hj] at x
          exact ho j v' w rfl hj hw x.symm
  unfold Field.set at hg
  rw [hcl] at hg
  cases a with
  | none =>
    cases hg
    exact em
  | some j =>
    replace hg : (match (Arg.other j).var f with | none => (.error .keyError : Res Field) | some (n, v) => (e.add (.other j)).setVariable k n v d') = .ok g := hg
    cases hv : (Arg.other j).var f with
    | none => rw [hv] at hg; cases hg
    | some q =>
      rw [hv] at hg
      obtain ⟨n, v'⟩ := q
      simp only [Field.setVariable] at hg
      have hvars : (e.add (.other j)).vars m = none := ((foldPut_keep j.vars e).2.2 m (hm j rfl)).trans em
      split at hg
      · cases hg
      · cases hr : recorded v' d' with
        | error x => rw [hr] at hg; cases hg
        | ok x =>
          rw [hr] at hg
          cases hg
          exact hvars

theorem initTags (vs : List (String × Var)) : ∀ f : Field, (vs.map (·.1)).Nodup → (∀ p ∈ vs, p.1 ∉ f.tags) →
    vs.foldlM (fun f p => if p.1 ∈ f.tags then (.error .valueError : Res Field) else .ok ({ f with tags := f.tags ++ [p.1] } : Field)) f
      = .ok { f with tags := f.tags ++ vs.map (·.1) } := by
  induction vs with
  | nil => intro f _ _; simp; rfl
  | cons p vs ih =>
    intro f hnd hf
    rw [List.map_cons, List.nodup_cons] at hnd
    rw [List.foldlM_cons, if_neg (hf p List.mem_cons_self)]
    show List.foldlM _ ({ f with tags := f.tags ++ [p.1] } : Field) vs = _
    rw [ih _ hnd.2]
    · simp
    · intro q hq hin
      rcases List.mem_append.mp hin with hin | hin
      · exact hf q (List.mem_cons_of_mem _ hq) hin
      · rw [List.mem_singleton] at hin
        exact hnd.1 (hin ▸ List.mem_map_of_mem hq)

theorem initVars (vs : List (String × Var)) : ∀ f : Field, (vs.map (·.1)).Nodup → (∀ p ∈ vs, f.vars p.1 = none) →
    (vs.foldl (fun f p => if (f.vars p.1).isSome then f else f.put p.1 p.2) f).tags = f.tags
    ∧ (∀ p ∈ vs, (vs.foldl (fun f p => if (f.vars p.1).isSome then f else f.put p.1 p.2) f).vars p.1 = some p.2)
    ∧ ∀ m, (∀ p ∈ vs, p.1 ≠ m) → (vs.foldl (fun f p => if (f.vars p.1).isSome then f else f.put p.1 p.2) f).vars m = f.vars m := by
  induction vs with
  | nil => intro f _ _; exact ⟨rfl, (fun p hp => by cases hp), fun _ _ => rfl⟩
  | cons p vs ih =>
    intro f hnd hf
    rw [List.map_cons, List.nodup_cons] at hnd
    have hp := hf p List.mem_cons_self
    have hstep : (if (f.vars p.1).isSome then f else f.put p.1 p.2) = f.put p.1 p.2 := by rw [hp]; rfl
    simp only [List.foldl_cons, hstep]
    have hne : ∀ q ∈ vs, q.1 ≠ p.1 := fun q hq e => hnd.1 (e ▸ List.mem_map_of_mem hq)
    obtain ⟨h1, h2, h3⟩ := ih (f.put p.1 p.2) hnd.2 (fun q hq => by rw [put_vars, if_neg (hne q hq)]; exact hf q (List.mem_cons_of_mem _ hq))
    refine ⟨h1, ?_, ?_⟩
    · intro q hq
      rcases List.mem_cons.mp hq with rfl | hq
      · rw [h3 _ hne, put_vars, if_pos rfl]
      · exact h2 q hq
    · intro m hm
      rw [h3 m fun q hq => hm q (List.mem_cons_of_mem _ hq), put_vars, if_neg]
      exact Ne.symm (hm p List.mem_cons_self)

theorem lastSet_filter (k : Key) (ops : List Op) (q : Op → Bool) (hq : ∀ j a d, q (.set j a d) = true) :
    lastSet k (ops.filter q) = lastSet k ops ∧ (ops.filter q).any (Op.sets k) = ops.any (Op.sets k) := by
  induction ops with
  | nil => exact ⟨rfl, rfl⟩
  | cons o os ih =>
    by_cases ho : q o = true
    · rw [List.filter_cons_of_pos ho]
      simp only [lastSet, List.any_cons, ih.1, ih.2]
      exact ⟨trivial, trivial⟩
    · rw [List.filter_cons_of_neg ho]
      have hs : o.sets k = false := by
        cases o with
        | set j a d => exact absurd (hq j a d) ho
        | read _ => rfl
        | addData _ _ => rfl
      refine ⟨ih.1.trans ?_, by rw [List.any_cons, hs, Bool.false_or]; exact ih.2⟩
      simp only [lastSet]
      split
      · rfl
      · rename_i hn
        have : lastSet k os = none := by
          rw [← lastSet_any, if_neg hn]
        cases o with
        | set j a d => exact absurd (hq j a d) ho
        | read _ => exact this
        | addData _ _ => exact this

theorem dataOf_filter (ops : List Op) (q : Op → Bool) (hq : ∀ n v, q (.addData n v) = true) :
    ∀ acc, dataOf acc (ops.filter q) = dataOf acc ops := by
  induction ops with
  | nil => intro _; rfl
  | cons o os ih =>
    intro acc
    by_cases ho : q o = true
    · rw [List.filter_cons_of_pos ho]
      cases o <;> exact ih _
    · rw [List.filter_cons_of_neg ho]
      cases o with
      | addData n v => exact absurd (hq n v) ho
      | set j a d => exact ih _
      | read _ => exact ih _

theorem setCrs_some {f : Field} {c0} (hc : f.getCrs = .ok c0) (n : String) (v : Var) :
    ∃ g, f.setCrs (some (n, v)) true true = .ok g ∧ g.getCrs = .ok (some (n, v)) ∧ g.map = f.map ∧ g.tags = f.tags
      ∧ ∀ m, m ≠ n → f.crs ≠ some m → g.vars m = f.vars m := by
  unfold Field.getCrs at hc
  cases hf : f.crs with
  | none =>
    have : f.getCrs = .ok none := by unfold Field.getCrs; rw [hf]
    refine ⟨{ f.put n v with crs := some n }, ?_, ?_, rfl, rfl, ?_⟩
    · unfold Field.setCrs; rw [this]; rfl
    · unfold Field.getCrs
      show (match (f.put n v).vars n with | none => _ | some _ => _) = _
      rw [put_vars, if_pos rfl]
    · intro m hm _
      show (f.put n v).vars m = _
      rw [put_vars, if_neg hm]
  | some o =>
    rw [hf] at hc
    dsimp only at hc
    cases hv : f.vars o with
    | none => rw [hv] at hc; cases hc
    | some w =>
      have : f.getCrs = .ok (some (o, w)) := by unfold Field.getCrs; rw [hf]; dsimp only; rw [hv]
      refine ⟨{ (({ f with vars := fun m => if m = o then none else f.vars m } : Field).put n v) with crs := some n }, ?_, ?_, rfl, rfl, ?_⟩
      · unfold Field.setCrs
        rw [this]
        show Field.pop _ _ >>= _ = _
        rw [pop_ok hv]; rfl
      · unfold Field.getCrs
        show (match (Field.put _ n v).vars n with | none => _ | some _ => _) = _
        rw [put_vars, if_pos rfl]
      · intro m hm hm'
        show (Field.put _ n v).vars m = _
        rw [put_vars, if_neg hm]
        show (if m = o then none else f.vars m) = _
        rw [if_neg]
        rintro rfl; exact hm' rfl

theorem setCrs_none {f : Field} {c0} (hc : f.getCrs = .ok c0) :
    ∃ g, f.setCrs none true true = .ok g ∧ g.getCrs = .ok none ∧ g.map = f.map ∧ g.tags = f.tags
      ∧ (∀ m, f.crs = some m → g.vars m = none) ∧ ∀ m, f.crs ≠ some m → g.vars m = f.vars m := by
  unfold Field.getCrs at hc
  cases hf : f.crs with
  | none =>
    have : f.getCrs = .ok none := by unfold Field.getCrs; rw [hf]
    refine ⟨{ f with crs := none }, ?_, rfl, rfl, rfl, ?_, fun _ _ => rfl⟩
    · unfold Field.setCrs; rw [this]; rfl
    · intro m hm; cases hm
  | some o =>
    rw [hf] at hc
    dsimp only at hc
    cases hv : f.vars o with
    | none => rw [hv] at hc; cases hc
    | some w =>
      have : f.getCrs = .ok (some (o, w)) := by unfold Field.getCrs; rw [hf]; dsimp only; rw [hv]
      refine ⟨{ f with vars := fun m => if m = o then none else f.vars m, crs := none }, ?_, rfl, rfl, rfl, ?_, ?_⟩
      · unfold Field.setCrs
        rw [this]
        show Field.pop _ _ >>= _ = _
        rw [pop_ok hv]; rfl
      · intro m hm
        cases hm
        show (if o = o then none else f.vars o) = _
        rw [if_pos rfl]
      · intro m hm'
        show (if m = o then none else f.vars m) = _
        rw [if_neg]
        rintro rfl; exact hm' rfl

end Ocgis.FieldCoords
