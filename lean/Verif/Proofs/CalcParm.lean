import Verif.Spec.CalcParm
/-!
# Lemmas
-/
namespace Ocgis.Props
open Ocgis Ocgis.Text Ocgis.CalcParm Ocgis.Spec

theorem find_last (l : List Class) (k : Text) (c : Class) :
    lookupKey l k = some c ↔ LastIn l k c := by
  unfold lookupKey LastIn
  constructor
  · intro h
    obtain ⟨hk, as, bs, hl, hn⟩ := List.find?_eq_some_iff_append.1 h
    have hl' : l = bs.reverse ++ c :: as.reverse := by
      have := congrArg List.reverse hl
      simpa using this
    refine ⟨_, _, hl', by simpa using hk, ?_⟩
    intro x hx
    have := hn x (by simpa using hx)
    simpa using this
  · rintro ⟨l1, l2, rfl, hk, hn⟩
    apply List.find?_eq_some_iff_append.2
    refine ⟨by simpa using hk, l2.reverse, l1.reverse, by simp, ?_⟩
    intro x hx
    simpa using hn x (by simpa using hx)

theorem find_none (l : List Class) (k : Text) : lookupKey l k = none ↔ ∀ x ∈ l, x.key ≠ k := by
  simp [lookupKey]

theorem lastIn_append (a b : List Class) (k : Text) (c : Class) (h : ∀ x ∈ a, x.key ≠ k) :
    LastIn (a ++ b) k c ↔ LastIn b k c := by
  rw [← find_last, ← find_last, lookupKey, lookupKey, List.reverse_append, List.find?_append]
  have : (a.reverse.find? fun c => decide (c.key = k)) = none := by simpa using h
  simp [this]

theorem lastIn_append_right (a b : List Class) (k : Text) (c : Class) (h : ∀ x ∈ b, x.key ≠ k) :
    LastIn (a ++ b) k c ↔ LastIn a k c := by
  rw [← find_last, ← find_last, lookupKey, lookupKey, List.reverse_append, List.find?_append]
  have : (b.reverse.find? fun c => decide (c.key = k)) = none := by simpa using h
  simp [this]

theorem findClass_iff (w : World) (k : Text) (c : Class) : findClass w k = some c ↔ ResolvesTo w k c := by
  unfold findClass ResolvesTo
  cases h : lookupKey (w.reg ++ w.library) k with
  | some c' =>
    have hl := (find_last _ _ _).1 h
    constructor
    · intro he
      simp only [Option.some.injEq] at he
      subst he
      exact Or.inl hl
    · rintro (h' | ⟨h', _⟩)
      · have := (find_last _ _ _).2 h'
        rw [h] at this
        exact this
      · obtain ⟨l1, l2, he, hk, _⟩ := hl
        exact absurd hk (h' c' (by rw [he]; simp))
  | none =>
    have hn := (find_none _ _).1 h
    simp only [List.isPrefixOf_iff_prefix]
    constructor
    · intro he
      split at he
      · rename_i hp
        exact Or.inr ⟨hn, hp, (lastIn_append _ _ _ _ hn).1 ((find_last _ _ _).1 he)⟩
      · cases he
    · rintro (h' | ⟨_, hp, hl⟩)
      · have := (find_last _ _ _).2 h'
        rw [h] at this
        cases this
      · rw [if_pos hp]
        exact (find_last _ _ _).2 ((lastIn_append _ _ _ _ hn).2 hl)

theorem regAfter_filter (lib : List Class) (es : List Event) (reg : List Class) (k : Text)
    (h : ∀ x ∈ lib, x.key ≠ k) :
    (regAfter lib es reg).filter (fun c => decide (c.key = k))
      = (reg ++ appended es).filter fun c => decide (c.key = k) := by
  have hl : (lib.filter fun c => decide (c.key = k)) = [] := by simpa using h
  induction es generalizing reg with
  | nil => simp [regAfter, appended]
  | cons e es ih =>
    cases e with
    | create => simp [regAfter, ih, appended, List.filter_append, hl]
    | append c => simp [regAfter, ih, appended, List.filter_append, List.filter_cons]

theorem lookupKey_filter (l : List Class) (k : Text) :
    lookupKey l k = lookupKey (l.filter fun c => decide (c.key = k)) k := by
  unfold lookupKey
  rw [← List.filter_reverse]
  induction l.reverse with
  | nil => rfl
  | cons a t ih =>
    by_cases h : a.key = k
    · rw [List.filter_cons, if_pos (by simpa using h), List.find?_cons, List.find?_cons]
      simp [h]
    · rw [List.filter_cons, if_neg (by simpa using h), List.find?_cons, ← ih]
      simp [h]

theorem validKwds_iff (c : Class) (names : List Text) : validKwds c names = true ↔ Accepts c names := by
  unfold validKwds Accepts
  cases hp : c.parms with
  | none => simp
  | some ps =>
    simp only [Bool.and_eq_true, List.all_eq_true, List.mem_filter, List.contains_iff_mem, List.mem_map, Prod.exists,
      exists_and_right, exists_eq_right, Bool.not_eq_true', Option.some.injEq]
    constructor
    · rintro ⟨h1, h2⟩ ps' rfl
      refine ⟨fun n hn => ?_, fun k hk => ?_⟩
      · by_cases hv : n ∈ c.vars
        · exact Or.inl hv
        · exact Or.inr (h1 n ⟨hn, by simpa [← Bool.not_eq_true, List.contains_iff_mem] using hv⟩)
      · obtain ⟨a, b⟩ := h2 k hk
        exact ⟨a, by simpa [← Bool.not_eq_true, List.contains_iff_mem] using b⟩
    · intro h
      obtain ⟨h1, h2⟩ := h ps rfl
      refine ⟨fun n hn => ?_, fun k hk => ?_⟩
      · rcases h1 n hn.1 with h | h
        · have := hn.2
          rw [← Bool.not_eq_true, List.contains_iff_mem] at this
          exact absurd h this
        · exact h
      · obtain ⟨a, b⟩ := h2 k hk
        exact ⟨a, by simpa [← Bool.not_eq_true, List.contains_iff_mem] using b⟩

theorem distinct_iff (l : List (Option Text)) : distinctNames l = true ↔ l.Nodup := by
  induction l with
  | nil => simp [distinctNames]
  | cons a l ih => simp [distinctNames, ih]

theorem lower_id (t : Text) (h : IsLower t) : lower t = t := by
  unfold lower
  induction t with
  | nil => rfl
  | cons c cs ih =>
    rw [List.map_cons, h c (by simp), ih fun d hd => h d (by simp [hd])]

theorem lowerVals_id (r : Request) (h : LowerValues r) : r.kwds.map (fun p => (p.1, lowerVal p.2)) = r.kwds := by
  have : ∀ p ∈ r.kwds, (p.1, lowerVal p.2) = p := by
    rintro ⟨k, v⟩ hp
    cases v with
    | text t => simp [lowerVal, lower_id t (h k t hp)]
    | int => rfl
    | float => rfl
    | bool => rfl
    | other => rfl
  conv => rhs; rw [← List.map_id r.kwds]
  exact List.map_congr_left this

theorem parseItem_dict (w : World) (r : Request) (i : Item) (hd : AsDict r i) (he : '=' ∉ r.func) (hl : LowerValues r) :
    parseItem w i = match findClass w r.func with
      | some c => .ok (false, ⟨r.func, .cls c, some r.label, r.kwds, false⟩)
      | none => .error .definitionValidation := by
  obtain ⟨m, rfl | ⟨hk, rfl⟩⟩ := hd
  · simp only [parseItem, Option.map_some, List.contains_iff_mem, he, Option.some.injEq, Option.getD_some]
    rw [lowerVals_id r hl]
    simp only [if_false]
    cases findClass w r.func <;> rfl
  · simp only [parseItem, Option.map_some, Option.some.injEq, Option.getD_none, List.map_nil]
    simp only [he, hk, List.contains_iff_mem, if_false]
    cases findClass w r.func <;> rfl

theorem parseItems_dicts (w : World) (rs : List Request) (is : List Item) (hd : List.Forall₂ AsDict rs is)
    (he : ∀ r ∈ rs, '=' ∉ r.func) (hl : ∀ r ∈ rs, LowerValues r) :
    (∀ b ds, parseItems w false is = .ok (b, ds) ↔ b = false ∧
      List.Forall₂ (fun r d => ∃ c, findClass w r.func = some c ∧ d = ⟨r.func, .cls c, some r.label, r.kwds, false⟩) rs ds)
    ∧ ∀ e, parseItems w false is = .error e → e = .definitionValidation := by
  induction hd with
  | nil =>
    constructor
    · intro b ds
      simp only [parseItems, Except.ok.injEq, Prod.mk.injEq]
      constructor
      · rintro ⟨rfl, rfl⟩
        exact ⟨rfl, .nil⟩
      · rintro ⟨rfl, h⟩
        cases h
        exact ⟨rfl, rfl⟩
    · intro e h
      cases h
  | @cons r i rs is h1 _ ih =>
    obtain ⟨ih1, ih2⟩ := ih (fun r hr => he r (by simp [hr])) (fun r hr => hl r (by simp [hr]))
    have hp := parseItem_dict w r i h1 (he r (by simp)) (hl r (by simp))
    simp only [parseItems, hp]
    cases hf : findClass w r.func with
    | none =>
      constructor
      · intro b ds
        constructor
        · intro h; cases h
        · rintro ⟨_, h⟩
          cases h with
          | cons h _ =>
            obtain ⟨c, hc, _⟩ := h
            rw [hf] at hc
            cases hc
      · rintro e h
        cases h
        rfl
    | some c =>
      simp only
      cases hr : parseItems w false is with
      | error e' =>
        constructor
        · intro b ds
          constructor
          · intro h; cases h
          · rintro ⟨_, h⟩
            cases h with
            | cons h hs =>
              have := (ih1 false _).2 ⟨rfl, hs⟩
              rw [hr] at this
              cases this
        · intro e h
          simp only [Except.error.injEq] at h
          exact h ▸ ih2 e' hr
      | ok p =>
        obtain ⟨b', ds'⟩ := p
        have := (ih1 b' ds').1 hr
        constructor
        · intro b ds
          simp only [Except.ok.injEq, Prod.mk.injEq]
          constructor
          · rintro ⟨rfl, rfl⟩
            exact ⟨this.1, .cons ⟨c, hf, rfl⟩ this.2⟩
          · rintro ⟨rfl, h⟩
            cases h with
            | cons h hs =>
              obtain ⟨c', hc', rfl⟩ := h
              rw [hf] at hc'
              cases hc'
              have h2 := (ih1 false _).2 ⟨rfl, hs⟩
              rw [hr] at h2
              simp only [Except.ok.injEq, Prod.mk.injEq] at h2
              exact ⟨h2.1, by rw [h2.2]⟩
        · intro e h
          cases h

theorem carries_iff (w : World) (rs : List Request) (ds : List Def) :
    List.Forall₂ (Carries w) rs ds ↔
      List.Forall₂ (fun r d => ∃ c, findClass w r.func = some c ∧ d = ⟨r.func, .cls c, some r.label, r.kwds, false⟩) rs ds
        ∧ ds.all validDef = true := by
  induction rs generalizing ds with
  | nil =>
    constructor
    · intro h; cases h; exact ⟨.nil, rfl⟩
    · rintro ⟨h, _⟩; cases h; exact .nil
  | cons r rs ih =>
    constructor
    · intro h
      cases h with
      | cons h hs =>
        obtain ⟨c, hc, ha, rfl⟩ := h
        obtain ⟨a, b⟩ := (ih _).1 hs
        refine ⟨.cons ⟨c, (findClass_iff _ _ _).2 hc, rfl⟩ a, ?_⟩
        simp [validDef, (validKwds_iff _ _).2 ha, b]
    · rintro ⟨h, hv⟩
      cases h with
      | cons h hs =>
        obtain ⟨c, hc, rfl⟩ := h
        simp only [List.all_cons, Bool.and_eq_true] at hv
        refine .cons ⟨c, (findClass_iff _ _ _).1 hc, (validKwds_iff _ _).1 ?_, rfl⟩ ((ih _).2 ⟨hs, hv.2⟩)
        simpa [validDef] using hv.1

theorem names_of (w : World) (rs : List Request) (ds : List Def)
    (h : List.Forall₂ (fun r d => ∃ c, findClass w r.func = some c ∧ d = ⟨r.func, .cls c, some r.label, r.kwds, false⟩) rs ds) :
    ds.map Def.name = rs.map fun r => some r.label := by
  induction h with
  | nil => rfl
  | cons h _ ih =>
    obtain ⟨c, _, rfl⟩ := h
    simp [ih]

theorem nodup_some (l : List Text) : (l.map some).Nodup ↔ l.Nodup := by
  induction l with
  | nil => simp
  | cons a l ih => simp [ih]

theorem calcItems (w : World) (a : Arg) (rs : List Request) (is : List Item) (ha : itemsOf w a = .ok (some is))
    (hd : List.Forall₂ AsDict rs is) (he : ∀ r ∈ rs, '=' ∉ r.func) (hl : ∀ r ∈ rs, LowerValues r) :
    (∀ ds, calcValue w a = .ok (some ds) ↔ List.Forall₂ (Carries w) rs ds ∧ (rs.map Request.label).Nodup)
    ∧ (∀ e, calcValue w a = .error e → e = .definitionValidation)
    ∧ calcValue w a ≠ .ok none := by
  obtain ⟨h1, h2⟩ := parseItems_dicts w rs is hd he hl
  unfold calcValue
  rw [ha]
  simp only
  cases hp : parseItems w false is with
  | error e' =>
    refine ⟨fun ds => ⟨fun h => (by cases h), ?_⟩, fun e h => ?_, by simp⟩
    · rintro ⟨hc, _⟩
      have := (h1 false ds).2 ⟨rfl, ((carries_iff w rs ds).1 hc).1⟩
      rw [hp] at this
      cases this
    · simp only [Except.error.injEq] at h
      exact h ▸ h2 e' hp
  | ok p =>
    obtain ⟨b, ds'⟩ := p
    obtain ⟨rfl, hf⟩ := (h1 b ds').1 hp
    have hnames := names_of w rs ds' hf
    have hn : (ds'.map Def.name).Nodup ↔ (rs.map Request.label).Nodup := by
      rw [hnames, ← nodup_some, List.map_map]
      rfl
    have hall : ∀ ds, List.Forall₂ (Carries w) rs ds → ds = ds' := by
      intro ds hc
      have := (h1 false ds).2 ⟨rfl, ((carries_iff w rs ds).1 hc).1⟩
      rw [hp] at this
      simp only [Except.ok.injEq, Prod.mk.injEq] at this
      exact this.2.symm
    simp only [validateDefs, Bool.false_eq_true, if_false]
    by_cases hnd : distinctNames (ds'.map Def.name) = true
    · simp only [hnd, Bool.not_true, Bool.false_eq_true, if_false]
      by_cases hv : ds'.all validDef = true
      · simp only [hv, if_true]
        refine ⟨fun ds => ?_, fun e h => (by cases h), by simp⟩
        simp only [Except.ok.injEq, Option.some.injEq]
        constructor
        · rintro rfl
          exact ⟨(carries_iff _ _ _).2 ⟨hf, hv⟩, hn.1 ((distinct_iff _).1 hnd)⟩
        · rintro ⟨hc, _⟩
          exact (hall ds hc).symm
      · simp only [hv, Bool.false_eq_true, if_false]
        refine ⟨fun ds => ⟨fun h => (by cases h), ?_⟩, fun e h => (by cases h; rfl), by simp⟩
        rintro ⟨hc, _⟩
        have := hall ds hc
        subst this
        exact absurd ((carries_iff _ _ _).1 hc).2 hv
    · simp only [hnd, Bool.not_false, if_true]
      refine ⟨fun ds => ⟨fun h => (by cases h), ?_⟩, fun e h => (by cases h; rfl), by simp⟩
      rintro ⟨_, ha⟩
      exact absurd ((distinct_iff _).2 (hn.2 ha)) hnd

theorem split1_app (sep : Char) (a b : Text) (h : sep ∉ a) : split1 sep (a ++ sep :: b) = some (a, b) := by
  induction a with
  | nil => simp [split1]
  | cons c cs ih =>
    have : c ≠ sep := fun e => h (by simp [e])
    simp [split1, this, ih fun hc => h (by simp [hc])]

theorem split1_none (sep : Char) (a : Text) (h : sep ∉ a) : split1 sep a = none := by
  induction a with
  | nil => rfl
  | cons c cs ih =>
    have : c ≠ sep := fun e => h (by simp [e])
    simp [split1, this, ih fun hc => h (by simp [hc])]

/-- All keywords put into a dictionary, one after the other. -/
def putAll (w : World) (ks : List (Text × Text)) (d : List (Text × Val)) : List (Text × Val) :=
  ks.foldl (fun d p => putKwd d p.1 (kwdValue w p.2)) d

theorem putKwd_new (d : List (Text × Val)) (k : Text) (v : Val) (h : k ∉ d.map Prod.fst) : putKwd d k v = d ++ [(k, v)] := by
  unfold putKwd
  rw [if_neg (by simpa [List.contains_iff_mem] using h)]

theorem putKwd_keys (d : List (Text × Val)) (k : Text) (v : Val) (h : k ∈ d.map Prod.fst) :
    (putKwd d k v).map Prod.fst = d.map Prod.fst := by
  unfold putKwd
  rw [if_pos (by simpa [List.contains_iff_mem] using h), List.map_map]
  apply List.map_congr_left
  intro p _
  by_cases hp : p.1 = k <;> simp [hp]

theorem putKwd_nodup (d : List (Text × Val)) (k : Text) (v : Val) (h : (d.map Prod.fst).Nodup) : ((putKwd d k v).map Prod.fst).Nodup := by
  by_cases hk : k ∈ d.map Prod.fst
  · rw [putKwd_keys _ _ _ hk]
    exact h
  · rw [putKwd_new _ _ _ hk, List.map_append]
    rw [List.nodup_append]
    refine ⟨h, by simp, ?_⟩
    intro a ha b hb hab
    simp only [List.map_cons, List.map_nil, List.mem_cons, List.not_mem_nil, or_false] at hb
    exact hk (hb ▸ hab ▸ ha)

theorem mem_putKwd (d : List (Text × Val)) (k : Text) (v : Val) (j : Text) (x : Val) :
    (j, x) ∈ putKwd d k v ↔ (j = k ∧ x = v) ∨ (j ≠ k ∧ (j, x) ∈ d) := by
  by_cases hk : k ∈ d.map Prod.fst
  · unfold putKwd
    rw [if_pos (by simpa [List.contains_iff_mem] using hk), List.mem_map]
    constructor
    · rintro ⟨p, hp, he⟩
      split at he
      · injection he with h1 h2
        exact .inl ⟨h1.symm, h2.symm⟩
      · rename_i hne
        subst he
        exact .inr ⟨hne, hp⟩
    · rintro (⟨rfl, rfl⟩ | ⟨hj, hm⟩)
      · obtain ⟨p, hp, rfl⟩ := List.mem_map.1 hk
        exact ⟨p, hp, by simp⟩
      · exact ⟨(j, x), hm, by simp [hj]⟩
  · rw [putKwd_new _ _ _ hk]
    simp only [List.mem_append, List.mem_cons, List.not_mem_nil, or_false, Prod.mk.injEq]
    constructor
    · rintro (h | h)
      · refine .inr ⟨?_, h⟩
        rintro rfl
        exact hk (List.mem_map_of_mem h)
      · exact .inl h
    · rintro (h | h)
      · exact .inr h
      · exact .inl h.2

theorem putAll_nodup (w : World) (ks : List (Text × Text)) : ∀ d, (d.map Prod.fst).Nodup → ((putAll w ks d).map Prod.fst).Nodup := by
  induction ks with
  | nil => exact fun d h => h
  | cons p ks ih => exact fun d h => ih _ (putKwd_nodup d _ _ h)

theorem mem_putAll (w : World) (ks : List (Text × Text)) (j : Text) (x : Val) : ∀ d,
    (j, x) ∈ putAll w ks d ↔
      (∃ l1 t l2, ks = l1 ++ (j, t) :: l2 ∧ j ∉ l2.map Prod.fst ∧ x = kwdValue w t) ∨ (j ∉ ks.map Prod.fst ∧ (j, x) ∈ d) := by
  induction ks with
  | nil => intro d; simp [putAll]
  | cons p ks ih =>
    intro d
    obtain ⟨k, v⟩ := p
    show (j, x) ∈ putAll w ks (putKwd d k (kwdValue w v)) ↔ _
    rw [ih, mem_putKwd]
    constructor
    · rintro (⟨l1, t, l2, rfl, h2, h3⟩ | ⟨h1, ⟨rfl, rfl⟩ | ⟨h2, h3⟩⟩)
      · exact .inl ⟨(k, v) :: l1, t, l2, rfl, h2, h3⟩
      · exact .inl ⟨[], v, ks, rfl, h1, rfl⟩
      · refine .inr ⟨?_, h3⟩
        simp only [List.map_cons, List.mem_cons, not_or]
        exact ⟨h2, h1⟩
    · rintro (⟨l1, t, l2, he, h2, h3⟩ | ⟨h1, h2⟩)
      · cases l1 with
        | nil =>
          injection he with he1 he2
          injection he1 with he3 he4
          subst he2; subst he3; subst he4
          exact .inr ⟨h2, .inl ⟨rfl, h3⟩⟩
        | cons a l1 =>
          injection he with he1 he2
          exact .inl ⟨l1, t, l2, he2, h2, h3⟩
      · simp only [List.map_cons, List.mem_cons, not_or] at h1
        exact .inr ⟨h1.2, .inr ⟨h1.1, h2⟩⟩

theorem putAll_new (w : World) (ks : List (Text × Text)) (d : List (Text × Val)) (hn : (d.map Prod.fst ++ ks.map Prod.fst).Nodup) :
    putAll w ks d = d ++ ks.map fun p => (p.1, kwdValue w p.2) := by
  induction ks generalizing d with
  | nil => simp [putAll]
  | cons p ks ih =>
    obtain ⟨k, v⟩ := p
    have hk : k ∉ d.map Prod.fst := by
      intro hk
      rw [List.nodup_append] at hn
      exact hn.2.2 k hk k (by simp) rfl
    show putAll w ks (putKwd d k (kwdValue w v)) = _
    rw [putKwd_new _ _ _ hk, ih]
    · simp
    · simpa using hn

theorem textKwds_clean (w : World) (ks : List (Text × Text)) (d : List (Text × Val)) (hp : ∀ p ∈ ks, '~' ∉ p.1 ∧ '~' ∉ p.2) :
    textKwds w (ks.map fun p => p.1 ++ '~' :: p.2) d = some (putAll w ks d) := by
  induction ks generalizing d with
  | nil => simp [textKwds, putAll]
  | cons p ks ih =>
    obtain ⟨k, v⟩ := p
    have h := hp (k, v) (by simp)
    have hs : split '~' (k ++ '~' :: v) = [k, v] := by
      have := split_unique '~' [k, v] (by simp) (by
        intro x hx
        simp only [List.mem_cons, List.not_mem_nil, or_false] at hx
        rcases hx with rfl | rfl
        · exact h.1
        · exact h.2)
      simpa [joined] using this
    simp only [List.map_cons, textKwds, hs]
    rw [ih _ fun p hq => hp p (by simp [hq])]
    rfl

theorem kwdTexts (ks : List (Text × Text)) (h : ks ≠ []) :
    (ks.map kwdText).flatten = '!' :: joined '!' (ks.map fun p => p.1 ++ '~' :: p.2) := by
  induction ks with
  | nil => exact absurd rfl h
  | cons p ks ih =>
    cases ks with
    | nil => simp [kwdText, joined]
    | cons q ks =>
      rw [List.map_cons, List.flatten_cons, ih (by simp)]
      simp [kwdText, joined]

theorem textRest_clean (w : World) (x : Written) (h : x.Clean) :
    textRest w (x.label ++ (x.kwds.map kwdText).flatten) = (x.label, putAll w x.kwds []) := by
  obtain ⟨_, ⟨ha, _⟩, hk, _, _⟩ := h
  unfold textRest
  by_cases hx : x.kwds = []
  · simp [hx, split1_none _ _ ha, putAll]
  · rw [kwdTexts _ hx, split1_app _ _ _ ha]
    simp only
    rw [split_unique '!' _ (by simpa using hx) ?_, textKwds_clean w x.kwds [] (fun p hp => ⟨(hk p hp).1.1, (hk p hp).2.1⟩)]
    · rfl
    · intro t ht
      obtain ⟨p, hp, rfl⟩ := List.mem_map.1 ht
      have := hk p hp
      simp only [List.mem_append, List.mem_cons, not_or]
      exact ⟨this.1.2.1, by decide, this.2.2.1⟩

theorem bar_free (x : Written) (h : x.Clean) : '|' ∉ x.text := by
  obtain ⟨⟨_, hf, _⟩, ⟨_, ha⟩, hk, _⟩ := h
  simp only [Written.text, List.mem_append, List.mem_cons, not_or, List.mem_flatten, List.mem_map, not_exists, not_and]
  refine ⟨hf, by decide, ha, ?_⟩
  rintro t ⟨p, hp, rfl⟩
  have := hk p hp
  simp only [kwdText, List.mem_cons, List.mem_append, not_or]
  exact ⟨by decide, this.1.2.2, by decide, this.2.2.2⟩

theorem parseString_clean (w : World) (x : Written) (h : x.Clean) :
    parseString w x.text = .ok (.dict (some x.func) (some x.label) (some (putAll w x.kwds [])) false false) := by
  have hl := lower_id _ h.2.2.2.1
  have hs := trimmed_strip _ _ h.2.2.2.2
  unfold parseString
  rw [hl, hs, if_neg]
  · unfold parseText1
    rw [Written.text, split1_app _ _ _ h.1.1]
    simp only [textRest_clean w x h]
  · intro he
    have : '~' ∈ x.text := by simp [Written.text]
    rw [he] at this
    revert this
    decide

theorem parseString_plain (w : World) (x : Written) (h : x.Plain) :
    parseString w x.text = .ok (.dict (some x.func) (some x.label) (some (x.request w).kwds) false false) := by
  rw [parseString_clean w x h.1, putAll_new w x.kwds [] (by simpa using h.2), List.nil_append]
  rfl

/-- One calculation in text gives one element. -/
theorem itemsOf_clean (w : World) (x : Written) (h : x.Clean) :
    itemsOf w (.text x.text) = .ok (some [.dict (some x.func) (some x.label) (some (putAll w x.kwds [])) false false]) := by
  have hs : split '|' x.text = [x.text] := by
    have := split_unique '|' [x.text] (by simp) (by simpa using bar_free x h)
    simpa [joined] using this
  have hm : [x.text].mapM (parseString w) = .ok [.dict (some x.func) (some x.label) (some (putAll w x.kwds [])) false false] := by
    rw [resMapM_cons, parseString_clean w x h]
    rfl
  simp only [itemsOf, hs, hm]

theorem lower_kwd (w : World) (x : Written) (h : x.Clean) (p : Text × Text) (hp : p ∈ x.kwds) : lowerVal (kwdValue w p.2) = kwdValue w p.2 := by
  unfold kwdValue
  cases w.float p.2 with
  | some q => rfl
  | none =>
    simp only [lowerVal, Val.text.injEq]
    apply lower_id
    intro c hc
    apply h.2.2.2.1
    simp only [Written.text, List.mem_append, List.mem_cons, List.mem_flatten, List.mem_map]
    refine Or.inr (Or.inr (Or.inr ⟨kwdText p, ⟨p, hp, rfl⟩, ?_⟩))
    simp [kwdText, hc]

/-- Elements that are all dictionaries of functions: text to be evaluated is not among them. -/
theorem parseItems_flag (w : World) (is : List Item)
    (h : ∀ i ∈ is, ∃ f n k m o, i = .dict (some f) (some n) k m o ∧ '=' ∉ f) :
    (∀ e, parseItems w false is = .error e → e = .definitionValidation) ∧
    ∀ flag ds, parseItems w false is = .ok (flag, ds) → flag = false ∧
      ∀ f n k m o, Item.dict f n k m o ∈ is → ∃ d ∈ ds, d.more = o := by
  induction is with
  | nil =>
    refine ⟨fun e h => (by cases h), fun flag ds hp => ?_⟩
    injection hp with hp
    injection hp with h1 h2
    exact ⟨h1.symm, fun _ _ _ _ _ hm => (by cases hm)⟩
  | cons i is ih =>
    obtain ⟨ih1, ih2⟩ := ih fun i hi => h i (by simp [hi])
    obtain ⟨f, n, k, m, o, rfl, hf⟩ := h i (by simp)
    have hi : parseItem w (.dict (some f) (some n) k m o) = match findClass w f with
        | some c => .ok (false, ⟨f, .cls c, some n, (k.getD []).map fun p => (p.1, lowerVal p.2), o⟩)
        | none => .error .definitionValidation := by
      simp only [parseItem, Option.map_some, List.contains_iff_mem, hf, Option.some.injEq, if_false]
      cases findClass w f <;> rfl
    simp only [parseItems, hi]
    cases hc : findClass w f with
    | none => exact ⟨fun e h => (by cases h; rfl), fun flag ds h => (by cases h)⟩
    | some c =>
      simp only
      cases hr : parseItems w false is with
      | error e' => exact ⟨fun e h => (by cases h; exact ih1 _ hr), fun flag ds h => (by cases h)⟩
      | ok r =>
        obtain ⟨flag', ds'⟩ := r
        obtain ⟨g1, g2⟩ := ih2 _ _ hr
        refine ⟨fun e h => (by cases h), fun flag ds h => ?_⟩
        injection h with h
        injection h with h1 h2
        subst h1; subst h2
        refine ⟨g1, ?_⟩
        intro f' n' k' m' o' hm
        rcases List.mem_cons.1 hm with he | hm
        · injection he with _ _ _ _ he
          exact ⟨_, List.mem_cons_self, he.symm⟩
        · obtain ⟨d, hd, hd'⟩ := g2 _ _ _ _ _ hm
          exact ⟨d, by simp [hd], hd'⟩

theorem asDict_written (w : World) (ws : List Written) (h : ∀ x ∈ ws, x.Plain) :
    ∃ is, (ws.map Written.text).mapM (parseString w) = .ok is ∧ List.Forall₂ AsDict (ws.map (Written.request w)) is := by
  induction ws with
  | nil => exact ⟨[], rfl, .nil⟩
  | cons x ws ih =>
    obtain ⟨is, h1, h2⟩ := ih fun x hx => h x (by simp [hx])
    refine ⟨.dict (some x.func) (some x.label) (some (x.request w).kwds) false false :: is, ?_, .cons ⟨false, Or.inl rfl⟩ h2⟩
    rw [List.map_cons, resMapM_cons, parseString_plain w x (h x (by simp)), h1]

theorem lower_value (w : World) (x : Written) (h : x.Plain) : LowerValues (x.request w) := by
  intro k t ht
  simp only [Written.request, List.mem_map] at ht
  obtain ⟨p, hp, he⟩ := ht
  simp only [Prod.mk.injEq] at he
  have hpt : p.2 = t := by
    cases hf : w.float p.2 with
    | some q => rw [hf] at he; simp at he
    | none => rw [hf] at he; simpa using he.2
  intro c hc
  apply h.1.2.2.2.1
  simp only [Written.text, List.mem_append, List.mem_cons, List.mem_flatten, List.mem_map]
  refine Or.inr (Or.inr (Or.inr ⟨kwdText p, ⟨p, hp, rfl⟩, ?_⟩))
  simp [kwdText, hpt, hc]

theorem toZero_int (i : Int) : toZero (i : Rat) = i := by
  unfold toZero
  split
  · exact Rat.floor_intCast i
  · exact Rat.ceil_intCast i

theorem convert_denotes (w : World) (t : Ty) (v v' : Val) (h : Denotes w t v v')
    (hb : t = .bool → ∀ s, v ≠ .text s) : convert w t v = .ok v' := by
  cases h with
  | int => rfl
  | whole i => simp [convert, toZero_int]
  | intText t i h => simp [convert, (toInt_iff t i).2 h]
  | float => rfl
  | ofInt => rfl
  | floatText t q h => simp [convert, h]
  | yesNumber => rfl
  | noNumber => rfl
  | bool => rfl
  | zero => rfl
  | nonzero i h => simp [convert, h]
  | zeroFloat => simp [convert]
  | nonzeroFloat q h => simp [convert, h]
  | boolText t b h => exact absurd rfl (hb rfl t)
  | text => rfl

end Ocgis.Props
