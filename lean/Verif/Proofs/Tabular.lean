import Verif.Spec.Tabular
/-!
# Lemmas
-/
namespace Ocgis.Props
open Ocgis Ocgis.Tabular Ocgis.Spec

/-- The rank a step belongs to, if it can touch the file. -/
def owner : Act → Option Nat
  | .create => some 0
  | .turn p => some p
  | _ => none

/-- What a step does to the file when its owner takes it. -/
def effect (j : Job) (f : Option File) : Act → Option File
  | .create => create j f
  | .turn p => put j p f
  | _ => f

/-- Between steps of different owners there is a barrier. -/
def Fenced (prog : List Act) : Prop :=
  ∀ (i k : Nat) (a b : Act) (p q : Nat), i < k → prog[i]? = some a → prog[k]? = some b → owner a = some p → owner b = some q → p ≠ q →
    ∃ m, i < m ∧ m < k ∧ prog[m]? = some Act.barrier

/-- All owners are ranks. -/
def Owned (j : Job) (prog : List Act) : Prop := ∀ a ∈ prog, ∀ p, owner a = some p → p < j.size

theorem act_owner (j : Job) (r : Nat) (f : Option File) (a : Act) : act j r f a = if owner a = some r then effect j f a else f := by
  cases a with
  | create => by_cases h : r = 0 <;> simp [act, owner, effect, h]; intro h'; exact absurd h'.symm h
  | turn p => by_cases h : r = p <;> simp [act, owner, effect, h]; intro h'; exact absurd h'.symm h
  | prepare => simp [act, owner]
  | barrier => simp [act, owner]

theorem effect_none (j : Job) (f : Option File) (a : Act) (h : owner a = none) : effect j f a = f := by
  cases a <;> simp_all [owner, effect]

/-- The invariant of a run: barriers keep ranks together; the steps done are, as far as the file goes, those before `n`. -/
structure Inv (j : Job) (f : Option File) (w : World) (n : Nat) : Prop where
  bound : ∀ r, r < j.size → w.pc r ≤ (program j).length
  together : ∀ r q k, r < j.size → q < j.size → (program j)[k]? = some .barrier → k < w.pc r → k ≤ w.pc q
  before : ∀ i a p, (program j)[i]? = some a → owner a = some p → (i < n ↔ i < w.pc p)
  file : w.file = ((program j).take n).foldl (effect j) f

theorem inv_start (j : Job) (f : Option File) : Inv j f ⟨f, fun _ => 0⟩ 0 where
  bound := by intro r _; simp
  together := by intro r q k _ _ _ h; simp at h
  before := by intro i a p _ _; simp
  file := by simp

theorem foldl_take_skip (j : Job) (prog : List Act) (f : Option File) (n : Nat) : ∀ (d : Nat),
    (∀ i a, n ≤ i → i < n + d → prog[i]? = some a → owner a = none) →
    (prog.take (n + d)).foldl (effect j) f = (prog.take n).foldl (effect j) f := by
  intro d
  induction d with
  | zero => intro _; rfl
  | succ d ih =>
    intro h
    have ih := ih (fun i a h1 h2 h3 => h i a h1 (by omega) h3)
    rw [← Nat.add_assoc, List.take_add_one, List.foldl_append, ih]
    cases ha : prog[n + d]? with
    | none => rfl
    | some a => simp [effect_none j _ a (h (n + d) a (by omega) (by omega) ha)]

theorem inv_step (j : Job) (f : Option File) (w : World) (n r : Nat) (hfence : Fenced (program j))
    (howned : Owned j (program j)) (h : Inv j f w n) :
    ∃ n', Inv j f (step j w r) n' := by
  unfold step
  by_cases hr : r < j.size
  · rw [if_pos hr]
    cases ha : (program j)[w.pc r]? with
    | none => exact ⟨n, h⟩
    | some a =>
      by_cases hgo : mayGo j w r a = true
      · simp only [hgo, if_true]
        have hlen : w.pc r < (program j).length := by
          rcases Nat.lt_or_ge (w.pc r) (program j).length with hh | hh
          · exact hh
          · rw [List.getElem?_eq_none hh] at ha; cases ha
        have hbound : ∀ q, q < j.size → (if q = r then w.pc r + 1 else w.pc q) ≤ (program j).length := by
          intro q hq
          by_cases hqr : q = r
          · simp only [hqr, if_true]; omega
          · simp only [hqr, if_false]; exact h.bound q hq
        have htog : ∀ x q k, x < j.size → q < j.size → (program j)[k]? = some .barrier →
            k < (if x = r then w.pc r + 1 else w.pc x) → k ≤ (if q = r then w.pc r + 1 else w.pc q) := by
          intro x q k hx hq hk hlt
          have hle : k ≤ w.pc q := by
            by_cases hxr : x = r
            · simp only [hxr, if_true] at hlt
              by_cases hkr : k = w.pc r
              · subst hkr
                rw [hk] at ha
                cases ha
                simp only [mayGo, List.all_eq_true] at hgo
                simpa using hgo q (by simpa using hq)
              · exact h.together r q k hr hq hk (by omega)
            · simp only [hxr, if_false] at hlt
              exact h.together x q k hx hq hk hlt
          by_cases hqr : q = r
          · subst hqr; simp only [if_true]; omega
          · simpa only [hqr, if_false] using hle
        by_cases hown : owner a = some r
        · -- the owner's step
          have hskip : ∀ i b, n ≤ i → i < w.pc r → (program j)[i]? = some b → owner b = none := by
            intro i b h1 h2 h3
            cases hb : owner b with
            | none => rfl
            | some p =>
              exfalso
              have hnd : ¬i < w.pc p := fun hh => absurd ((h.before i b p h3 hb).2 hh) (by omega)
              by_cases hpr : p = r
              · subst hpr; exact hnd h2
              · obtain ⟨m, hm1, hm2, hm3⟩ := hfence i (w.pc r) b a p r h2 h3 ha hb hown hpr
                have := h.together r p m hr (howned b (List.mem_of_getElem? h3) p hb) hm3 hm2
                omega
          have hn : n ≤ w.pc r := by
            have := h.before (w.pc r) a r ha hown
            omega
          refine ⟨w.pc r + 1, ⟨hbound, htog, ?_, ?_⟩⟩
          · intro i b p hi hb
            by_cases hpr : p = r
            · subst hpr; simp only [if_true]
            · simp only [hpr, if_false]
              constructor
              · intro hlt
                have hne : i ≠ w.pc r := by
                  rintro rfl
                  rw [hi] at ha; cases ha
                  rw [hb] at hown; cases hown; exact hpr rfl
                obtain ⟨m, hm1, hm2, hm3⟩ := hfence i (w.pc r) b a p r (by omega) hi ha hb hown hpr
                have := h.together r p m hr (howned b (List.mem_of_getElem? hi) p hb) hm3 hm2
                omega
              · intro hlt
                have := (h.before i b p hi hb).2 hlt
                omega
          · show act j r w.file a = _
            rw [act_owner, if_pos hown, List.take_add_one, ha, List.foldl_append, h.file]
            have := foldl_take_skip j (program j) f n (w.pc r - n) (fun i b h1 h2 h3 => hskip i b h1 (by omega) h3)
            rw [show n + (w.pc r - n) = w.pc r by omega] at this
            rw [this]
            rfl
        · refine ⟨n, ⟨hbound, htog, ?_, ?_⟩⟩
          · intro i b p hi hb
            rw [h.before i b p hi hb]
            by_cases hpr : p = r
            · subst hpr
              simp only [if_true]
              have : i ≠ w.pc p := by
                rintro rfl
                rw [hi] at ha; cases ha
                exact hown hb
              omega
            · simp only [hpr, if_false]
          · show act j r w.file a = _
            rw [act_owner, if_neg hown]; exact h.file
      · rw [Bool.not_eq_true] at hgo
        simp only [hgo]
        exact ⟨n, h⟩
  · rw [if_neg hr]; exact ⟨n, h⟩

theorem inv_run (j : Job) (f : Option File) (hfence : Fenced (program j)) (howned : Owned j (program j)) (schedule : List Nat) :
    ∃ n, Inv j f (run j f schedule) n := by
  unfold run
  suffices hg : ∀ (w : World), (∃ n, Inv j f w n) → ∃ n, Inv j f (schedule.foldl (step j) w) n from hg _ ⟨0, inv_start j f⟩
  induction schedule with
  | nil => intro w hw; exact hw
  | cons r rs ih => intro w ⟨n, hn⟩; exact ih _ (inv_step j f w n r hfence howned hn)

/-- The step at a place of the loop. -/
theorem turns_get (n : Nat) : ∀ i, (turns n)[i]? = if i < 2 * n then some (if i % 2 = 0 then .turn (i / 2) else .barrier) else none := by
  induction n with
  | zero => intro i; simp [turns]
  | succ n ih =>
    intro i
    have hl : (turns n).length = 2 * n := by
      have h1 := ih (2 * n)
      rw [if_neg (by omega), List.getElem?_eq_none_iff] at h1
      rcases Nat.eq_zero_or_pos n with h0 | h0
      · subst h0; simp [turns]
      · have h2 := ih (2 * n - 1)
        rw [if_pos (by omega)] at h2
        have := (List.getElem?_eq_some_iff.1 h2).1
        omega
    have hs : turns (n + 1) = turns n ++ [.turn n, .barrier] := by simp [turns, List.range_succ]
    rw [hs, List.getElem?_append, hl]
    by_cases h : i < 2 * n
    · rw [if_pos h, ih, if_pos h, if_pos (show i < 2 * (n + 1) by omega)]
    · rw [if_neg h]
      by_cases h1 : i = 2 * n
      · subst h1; simp
      · by_cases h2 : i = 2 * n + 1
        · subst h2
          rw [if_pos (by omega), if_neg (by omega)]
          simp [show 2 * n + 1 - 2 * n = 1 by omega]
        · rw [if_neg (by omega), List.getElem?_eq_none]
          simp; omega

/-- Turns are followed by a barrier, and those of later ranks come after one. -/
def Tidy (prog : List Act) : Prop :=
  (∀ i p, prog[i]? = some (.turn p) → prog[i + 1]? = some .barrier) ∧
  (∀ i p, prog[i]? = some (.turn (p + 1)) → 0 < i ∧ prog[i - 1]? = some .barrier)

theorem tidy_append (xs ys : List Act) (hx : Tidy xs) (hy : Tidy ys) : Tidy (xs ++ ys) := by
  constructor
  · intro i p h
    rw [List.getElem?_append] at h ⊢
    by_cases hi : i < xs.length
    · rw [if_pos hi] at h
      have := hx.1 i p h
      rw [if_pos (List.getElem?_eq_some_iff.1 this).1, this]
    · rw [if_neg hi] at h
      rw [if_neg (by omega), show i + 1 - xs.length = i - xs.length + 1 by omega]
      exact hy.1 _ p h
  · intro i p h
    rw [List.getElem?_append] at h ⊢
    by_cases hi : i < xs.length
    · rw [if_pos hi] at h
      have := hx.2 i p h
      rw [if_pos (by omega)]
      exact this
    · rw [if_neg hi] at h
      have := hy.2 _ p h
      refine ⟨by omega, ?_⟩
      rw [if_neg (by omega), show i - 1 - xs.length = i - xs.length - 1 by omega]
      exact this.2

theorem tidy_turns (n : Nat) : Tidy (turns n) := by
  constructor
  · intro i p h
    rw [turns_get] at h ⊢
    split at h
    · rename_i h1
      split at h
      · rename_i h2
        rw [if_pos (by omega), if_neg (by omega)]
      · cases h
    · cases h
  · intro i p h
    rw [turns_get] at h ⊢
    split at h
    · rename_i h1
      split at h
      · rename_i h2
        simp only [Option.some.injEq, Act.turn.injEq] at h
        rw [if_pos (by omega), if_neg (by omega)]
        exact ⟨by omega, rfl⟩
      · cases h
    · cases h

theorem tidy_single (a : Act) (h : ∀ p, a ≠ .turn p) : Tidy [a] := by
  constructor <;> intro i p hh <;> cases i <;> simp at hh
  · exact absurd hh (h p)
  · exact absurd hh (h _)

theorem tidy_program (j : Job) : Tidy (program j) := by
  unfold program
  induction j.modes with
  | nil => constructor <;> intro i p h <;> simp at h
  | cons m ms ih =>
    rw [List.flatMap_cons]
    apply tidy_append _ _ _ ih
    have h1 := tidy_single .prepare (by intro p; simp)
    have h2 := tidy_single .create (by intro p; simp)
    have h3 := tidy_turns j.size
    cases m with
    | normal => exact tidy_append [.prepare] _ h1 (tidy_append [.create] _ h2 h3)
    | template => exact tidy_append [.prepare] _ h1 h2
    | fill => exact tidy_append [.prepare] _ h1 h3

theorem fenced_of_tidy (prog : List Act) (h : Tidy prog) : Fenced prog := by
  intro i k a b p q hik ha hb hp hq hpq
  cases a with
  | turn p' =>
    have := h.1 i p' ha
    refine ⟨i + 1, by omega, ?_, this⟩
    have : k ≠ i + 1 := by
      rintro rfl
      rw [this] at hb; cases hb; cases hq
    omega
  | create =>
    cases b with
    | turn q' =>
      cases q' with
      | zero => simp only [owner, Option.some.injEq] at hp hq; exact absurd (hp.symm.trans hq) hpq
      | succ q' =>
        have := h.2 k q' hb
        refine ⟨k - 1, ?_, by omega, this.2⟩
        have : i ≠ k - 1 := by
          rintro rfl
          rw [this.2] at ha; cases ha
        omega
    | create => simp only [owner, Option.some.injEq] at hp hq; exact absurd (hp.symm.trans hq) hpq
    | prepare => cases hq
    | barrier => cases hq
  | prepare => cases hp
  | barrier => cases hp

theorem owned_program (j : Job) (hs : 0 < j.size) : Owned j (program j) := by
  intro a ha p hp
  unfold program at ha
  obtain ⟨m, _, hm⟩ := List.mem_flatMap.1 ha
  have ht : ∀ a ∈ turns j.size, ∀ p, owner a = some p → p < j.size := by
    intro a ha p hp
    unfold turns at ha
    obtain ⟨x, hx, hx2⟩ := List.mem_flatMap.1 ha
    rcases List.mem_cons.1 hx2 with rfl | hx2
    · cases hp; simpa using hx
    · rw [List.mem_singleton] at hx2; subst hx2; cases hp
  cases m with
  | normal =>
    rcases List.mem_cons.1 hm with rfl | hm
    · cases hp
    · rcases List.mem_cons.1 hm with rfl | hm
      · cases hp; exact hs
      · exact ht a hm p hp
  | template =>
    rcases List.mem_cons.1 hm with rfl | hm
    · cases hp
    · rw [List.mem_singleton] at hm; subst hm; cases hp; exact hs
  | fill =>
    rcases List.mem_cons.1 hm with rfl | hm
    · cases hp
    · exact ht a hm p hp

theorem foldl_turns (j : Job) (n : Nat) : ∀ (f : Option File),
    (turns n).foldl (effect j) f = (List.range n).foldl (fun f r => put j r f) f := by
  intro f
  unfold turns
  rw [List.foldl_flatMap]
  rfl

theorem foldl_program (j : Job) (f : Option File) : (program j).foldl (effect j) f = writeModes j f := by
  unfold program writeModes
  rw [List.foldl_flatMap]
  congr 1
  funext f m
  cases m with
  | normal => simp only [pass, List.foldl_cons, effect, foldl_turns]; simp
  | template => simp [pass, effect]
  | fill => simp only [pass, List.foldl_cons, effect, foldl_turns]; simp

theorem foldl_put_geojson (j : Job) (hf : j.format = .geojson) (f : Option File) (n : Nat) :
    (List.range (n + 1)).foldl (fun f r => put j r f) f = some ⟨j.header, j.lines n⟩ := by
  rw [List.range_succ, List.foldl_append]
  simp [put, hf]

theorem foldl_put_some (j : Job) (hf : j.format ≠ .geojson) (g : File) (n : Nat) :
    (List.range n).foldl (fun f r => put j r f) (some g) = some ⟨g.header, g.rows ++ (List.range n).flatMap j.lines⟩ := by
  induction n with
  | zero => simp
  | succ n ih =>
    rw [List.range_succ, List.foldl_append, ih, List.flatMap_append]
    cases h : j.format <;> simp_all [put]

theorem foldl_put_none (j : Job) (hf : j.format ≠ .geojson) (n : Nat) :
    (List.range (n + 1)).foldl (fun f r => put j r f) none = some ⟨[], (List.range (n + 1)).flatMap j.lines⟩ := by
  induction n with
  | zero => cases h : j.format <;> simp_all [put]
  | succ n ih =>
    rw [List.range_succ, List.foldl_append, ih, List.flatMap_append]
    cases h : j.format <;> simp_all [put]

theorem writeModes_eq (j : Job) (hs : 0 < j.size) (f : Option File) : writeModes j f = expectedFile j f := by
  unfold writeModes expectedFile
  congr 1
  funext f m
  obtain ⟨n, hn⟩ : ∃ n, j.size = n + 1 := ⟨j.size - 1, by omega⟩
  simp only [afterPass, allLines]
  by_cases hf : j.format = .geojson
  · have h2 := foldl_put_geojson j hf f n
    cases m <;> simp [hf, create, hn, h2]
  · by_cases hm : m = .fill
    · subst hm
      cases f with
      | none => have := foldl_put_none j hf n
                cases h : j.format <;> simp_all
      | some g => have := foldl_put_some j hf g (n + 1)
                  cases h : j.format <;> simp_all
    · have := foldl_put_some j hf ⟨j.header, []⟩ (n + 1)
      cases h : j.format <;> cases m <;> simp_all [create]

theorem setKey_fresh (acc : Record) (k v : String) (h : k ∉ acc.map (·.1)) : setKey acc k v = acc ++ [(k, v)] := by
  induction acc with
  | nil => rfl
  | cons e es ih =>
    simp only [List.map_cons, List.mem_cons, not_or] at h
    simp only [setKey, Ne.symm h.1, if_false, ih h.2, List.cons_append]

theorem foldl_setKey (g : String → String) (rec : Record) : ∀ (acc : Record),
    (acc.map (·.1) ++ rec.map (fun e => g e.1)).Nodup →
    rec.foldl (fun acc e => setKey acc (g e.1) e.2) acc = acc ++ rec.map fun e => (g e.1, e.2) := by
  induction rec with
  | nil => intro acc _; simp
  | cons e es ih =>
    intro acc h
    have hfresh : g e.1 ∉ acc.map (·.1) := by
      intro hmem
      rw [List.nodup_append] at h
      exact h.2.2 _ hmem _ (by simp) rfl
    rw [List.foldl_cons, setKey_fresh acc _ _ hfresh, ih]
    · simp
    · simpa using h

theorem formatRecord_eq (fmt : Format) (rec : Record) (h : ((rec.map (·.1)).map (storedName fmt)).Nodup) :
    formatRecord fmt rec = stored fmt rec := by
  unfold formatRecord stored
  by_cases hf : fmt = .shapefile
  · rw [if_pos hf]
    have hg : ∀ k : String, (if k.length > 10 then String.ofList (k.toList.take 10) else k) = storedName fmt k := by
      intro k; simp [storedName, hf]
    simp only [hg]
    have := foldl_setKey (storedName fmt) rec [] (by simpa [List.map_map, Function.comp_def] using h)
    simpa using this
  · rw [if_neg hf]
    simp [storedName, hf]

theorem find_nodup (rec : Record) (h : (rec.map (·.1)).Nodup) :
    (rec.map (·.1)).map (fun k => ((rec.find? fun e => e.1 = k).map (·.2)).getD "") = rec.map (·.2) := by
  rw [List.map_map]
  apply List.map_congr_left
  intro e he
  have : rec.find? (fun x => x.1 = e.1) = some e := by
    induction rec with
    | nil => simp at he
    | cons a as ih =>
      rw [List.find?_cons]
      simp only [List.map_cons, List.nodup_cons] at h
      rcases List.mem_cons.1 he with rfl | hm
      · simp
      · have hne : a.1 ≠ e.1 := by
          intro hh; exact h.1 (hh ▸ List.mem_map_of_mem hm)
        simp only [hne, decide_false]
        exact ih h.2 hm
  simp [Function.comp_apply, this]

theorem toRow_eq (names : Row) (rec : Record) (hn : rec.map (·.1) = names) (hd : names.Nodup) :
    toRow names rec = .ok (rec.map (·.2)) := by
  subst hn
  unfold toRow
  rw [if_pos, find_nodup rec hd]
  rw [List.all_eq_true]
  intro e he
  simp only [List.contains_iff_mem]
  exact List.mem_map_of_mem he

theorem mapM_all_ok {α β : Type} (g : α → Res β) (g' : α → β) (xs : List α) (h : ∀ x ∈ xs, g x = .ok (g' x)) :
    xs.mapM g = .ok (xs.map g') := by
  induction xs with
  | nil => rfl
  | cons x xs ih =>
    rw [resMapM_cons, h x (by simp), ih (fun y hy => h y (by simp [hy]))]
    rfl

/-- Values of the records of a rank, as lines. -/
def lines1 (p : List Record) : List Row := p.map fun rec => rec.map (·.2)

theorem linesOf_eq (fmt : Format) (mode : Option Mode) (f : Option File) (names : Row) (hd : names.Nodup) (p : List Record)
    (hne : p ≠ []) (hp : ∀ rec ∈ p, rec.map (·.1) = names)
    (hf : fmt = .shapefile → mode = some .fill → ∀ g, f = some g → g.header = names) :
    linesOf fmt mode f p = .ok (lines1 p) := by
  have hc : columns fmt mode f p = .ok names := by
    unfold columns
    cases p with
    | nil => exact absurd rfl hne
    | cons rec p =>
      simp only [fieldNames, hp rec (by simp)]
      split
      · rename_i h
        rw [hf rfl rfl _ rfl]
        simp
      · rfl
  unfold linesOf
  rw [hc]
  exact mapM_all_ok _ _ _ (fun rec hr => toRow_eq names rec (hp rec hr) hd)

theorem range_flatMap_get {α : Type} (xs : List (List α)) : (List.range xs.length).flatMap (fun r => (xs[r]?).getD []) = xs.flatten := by
  induction xs with
  | nil => rfl
  | cons x xs ih =>
    rw [List.length_cons, List.range_succ_eq_map, List.flatMap_cons, List.flatMap_map]
    simp [ih]

theorem writeField_eq (fmt : Format) (hg : fmt ≠ .geojson) (mode : Option Mode) (f : Option File) (names : Row)
    (hd : (names.map (storedName fmt)).Nodup)
    (parts : List (List Record)) (hparts : parts ≠ []) (hne : ∀ p ∈ parts, p ≠ [])
    (hp : ∀ p ∈ parts, ∀ rec ∈ p, rec.map (·.1) = names)
    (hm : (mode = none) ∨ (mode = some .fill ∧ ∃ g, f = some g ∧ g.header = names.map (storedName fmt))) :
    writeField fmt mode parts f = .ok (some ⟨names.map (storedName fmt),
      (match mode, f with | some _, some g => g.rows | _, _ => []) ++ (parts.flatten.map fun rec => rec.map (·.2))⟩) := by
  have hmap : parts.map (fun p => p.map (formatRecord fmt)) = parts.map (fun p => p.map (stored fmt)) := by
    apply List.map_congr_left; intro p hpp
    apply List.map_congr_left; intro rec hr
    apply formatRecord_eq; rw [hp p hpp rec hr]; exact hd
  have hlines : (parts.map (fun p => p.map (stored fmt))).mapM (linesOf fmt mode f)
      = .ok ((parts.map (fun p => p.map (stored fmt))).map lines1) := by
    apply mapM_all_ok
    intro p hpp
    obtain ⟨p0, hp0, rfl⟩ := List.mem_map.1 hpp
    refine linesOf_eq fmt mode f (names.map (storedName fmt)) hd _ (by simpa using hne p0 hp0) ?_ ?_
    · intro rec hr
      obtain ⟨r0, hr0, rfl⟩ := List.mem_map.1 hr
      rw [← hp p0 hp0 r0 hr0]
      simp [stored, Function.comp_def]
    · intro _ hmode g hfg
      rcases hm with h | ⟨_, g', hg', hh⟩
      · rw [h] at hmode; cases hmode
      · rw [hg'] at hfg; cases hfg; exact hh
  have hnames : fieldNames (((parts.map (fun p => p.map (stored fmt)))[0]?).getD []) = .ok (names.map (storedName fmt)) := by
    cases parts with
    | nil => exact absurd rfl hparts
    | cons p ps =>
      cases p with
      | nil => exact absurd rfl (hne [] (by simp))
      | cons rec p =>
        have := hp (rec :: p) (by simp) rec (by simp)
        simp [fieldNames, stored, ← this, Function.comp_def]
  have hall : (parts.map (fun p => p.map (stored fmt))).map lines1 = parts.map lines1 := by
    rw [List.map_map]
    apply List.map_congr_left; intro p _
    simp [lines1, stored, Function.comp_def]
  have hflat : (parts.map lines1).flatten = parts.flatten.map fun rec => rec.map (·.2) := by
    rw [List.map_flatten]; rfl
  have hlen : 0 < parts.length := List.length_pos_iff.2 hparts
  unfold writeField
  simp only [hmap, hlines, hnames, hall, List.length_map]
  rw [writeModes_eq _ hlen]
  have ha : ∀ m, allLines ⟨fmt, m, names.map (storedName fmt), fun r => ((parts.map lines1)[r]?).getD [], parts.length⟩
      = parts.flatten.map fun rec => rec.map (·.2) := by
    intro m
    unfold allLines
    rw [← hflat, ← range_flatMap_get (parts.map lines1), List.length_map]
  clear hmap hlines hnames hall hflat
  rcases hm with rfl | ⟨rfl, g, rfl, hh⟩
  · by_cases hsz : parts.length > 1
    · simp only [modes, hsz, if_true, expectedFile, List.foldl_cons, List.foldl_nil]
      cases fmt <;> simp_all [afterPass]
    · simp only [modes, hsz, if_false, expectedFile, List.foldl_cons, List.foldl_nil]
      cases fmt <;> simp_all [afterPass]
  · simp only [modes, expectedFile, List.foldl_cons, List.foldl_nil]
    cases fmt <;> simp_all [afterPass]

theorem appendColls_eq (fmt : Format) (hg : fmt ≠ .geojson) (names : Row)
    (hd : (names.map (storedName fmt)).Nodup) (colls : List (List (List Record))) : ∀ (rows : List Row),
    (∀ c ∈ colls, c ≠ [] ∧ ∀ p ∈ c, p ≠ [] ∧ ∀ rec ∈ p, rec.map (·.1) = names) →
    appendColls fmt (colls.map fun c => [c]) (some ⟨names.map (storedName fmt), rows⟩)
      = .ok (some ⟨names.map (storedName fmt), rows ++ (colls.flatten.flatten.map fun rec => rec.map (·.2))⟩) := by
  induction colls with
  | nil => intro rows _; simp [appendColls]
  | cons c cs ih =>
    intro rows h
    have hc := h c (by simp)
    rw [List.map_cons, appendColls, writeColl, writeField_eq fmt hg (some .fill) _ names hd c hc.1 (fun p hp => (hc.2 p hp).1)
      (fun p hp => (hc.2 p hp).2) (Or.inr ⟨rfl, _, rfl, rfl⟩)]
    simp only [writeColl]
    rw [ih _ (fun c hc => h c (by simp [hc]))]
    simp

end Ocgis.Props
