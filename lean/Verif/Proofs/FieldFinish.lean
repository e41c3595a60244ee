import Verif.Proofs.FieldRecords

/-! # The records of a field under standard names -/

namespace Ocgis.FieldIter
open Ocgis Ocgis.RecordIter Ocgis.Spec Ocgis.Collection Ocgis.Masks Ocgis.Props

theorem follows_its {α : Type} (fmt : Fmt α) (fld : Fld α) (o : Opts α) (size : String → Nat) (lead : Var α) (vs : List (Var α)) (L : It α)
    (hL : L.var = lead) (hf : FieldFits size fld o lead) (hvs : ∀ v ∈ vs, v ∈ fld.data ++ o.followers) (f : It α)
    (h : f ∈ followersOf L (argsOf fmt fld o vs)) : FollowsF size L f := by
  subst hL
  have coord : ∀ fv al pr c, c ∈ coordinates fld → FollowsF size L (coordIt fv al pr c) := by
    intro fv al pr c hc
    obtain ⟨h1, h2⟩ := hf.coords c hc
    exact ⟨h1, h2, fun _ => ⟨rfl, rfl⟩⟩
  have bound : ∀ fb al pr c, c ∈ coordinates fld → ∀ v ∈ boundVars c.var, FollowsF size L (boundIt fb al pr c.var.name v) := by
    intro fb al pr c hc v hv
    obtain ⟨h1, h2⟩ := hf.coords c hc
    obtain ⟨-, e1, e2, -⟩ := boundVars_rr _ _ hv
    refine ⟨⟨?_, ?_⟩, ?_, fun _ => ⟨rfl, rfl⟩⟩
    · show v.shape = v.dims.map size
      rw [e1, e2]; exact h1.1
    · show v.dims.Nodup
      rw [e1]; exact h1.2
    · show ∀ d ∈ v.dims, _
      rw [e1]; exact h2
  rcases (mem_its fmt fld o hf.realization vs L f).1 h with ⟨v, hv, rfl⟩ | hi
  · obtain ⟨h1, h2⟩ := hf.vars v (hvs v hv)
    exact ⟨h1, h2, fun _ => ⟨rfl, rfl⟩⟩
  · clear h
    cases hi with
    | geom g h =>
      obtain ⟨h1, h2⟩ := hf.geom g h
      exact ⟨h1, h2, fun _ => ⟨rfl, rfl⟩⟩
    | ugid g u h hu =>
      obtain ⟨h1, h2⟩ := hf.geom g h
      obtain ⟨e1, e2⟩ := hf.ugid g u h hu
      refine ⟨⟨?_, ?_⟩, ?_, fun _ => ⟨rfl, rfl⟩⟩
      · show u.shape = u.dims.map size
        rw [e1, e2]; exact h1.1
      · show u.dims.Nodup
        rw [e1]; exact h1.2
      · show ∀ d ∈ u.dims, _
        rw [e1]; exact h2
    | realization c h => exact coord _ _ _ c (by simp [coordinates, h])
    | time c h => exact coord _ _ _ c (by simp [coordinates, h])
    | timeBounds c v h hv => exact bound _ _ _ c (by simp [coordinates, h]) v hv
    | level c h => exact coord _ _ _ c (by simp [coordinates, h])
    | levelBounds c v h hv => exact bound _ _ _ c (by simp [coordinates, h]) v hv

theorem allow_its {α : Type} (fmt : Fmt α) (fld : Fld α) (o : Opts α) (hr : ∀ c, fld.realization = some c → c.var.bounds = none)
    (lead : Var α) (vs : List (Var α)) (f : It α)
    (h : f ∈ followersOf (leadIt o lead) (argsOf fmt fld o vs)) : f.allowMasked = o.allowMasked := by
  rcases (mem_its fmt fld o hr vs _ f).1 h with ⟨v, hv, rfl⟩ | h
  · rfl
  · cases h <;> rfl

theorem coordName_mem {α : Type} (c : Option (Coord α)) (x : Coord α) (h : c = some x) : x.var.name ∈ coordNames c := by
  subst h; simp [coordNames]

theorem left_out {α : Type} (fmt : Fmt α) (fld : Fld α) (o : Opts α) (hr : ∀ c, fld.realization = some c → c.var.bounds = none)
    (lead : Var α) (rest : List (Var α)) (hd : fld.data = lead :: rest) (hn : (rawNames fld o).Nodup) (idx : List Nat) :
    Omitted (leadIt o lead) (leadIt o lead :: followersOf (leadIt o lead) (argsOf fmt fld o (o.followers ++ rest))) idx ↔
      LeftOut fld o lead idx := by
  have hdata : ∀ v ∈ o.followers ++ rest, v.name ≠ lead.name := by
    intro v hv he
    have h1 : ((fld.data ++ o.followers).map Var.name).Nodup := by
      unfold rawNames at hn
      exact (List.nodup_append.1 (List.nodup_append.1 (List.nodup_append.1 (List.nodup_append.1 (List.nodup_append.1 hn).1).1).1).1).1
    rw [hd] at h1
    simp only [List.cons_append, List.map_cons, List.nodup_cons] at h1
    apply h1.1
    rw [← he]
    apply List.mem_map_of_mem
    rcases List.mem_append.1 hv with h | h <;> simp [h]
  have hgc : ∀ g, fld.geom = some g → (∀ u, fld.ugid = some u → u.name ≠ g.name) ∧ ∀ c ∈ coordinates fld, c.var.name ≠ g.name := by
    intro g hg
    have hn' : (((fld.data ++ o.followers).map Var.name) ++ ((g.name :: (match fld.ugid with | some u => [u.name] | none => [])) ++
        (coordNames fld.realization ++ (coordNames fld.time ++ ((if fld.time.isSome then ["YEAR", "MONTH", "DAY"] else []) ++
        coordNames fld.level))))).Nodup := by
      unfold rawNames at hn
      rw [hg] at hn
      simp only [List.append_assoc] at hn
      exact hn
    have h2 := (List.nodup_append.1 hn').2.1
    rw [List.cons_append, List.nodup_cons] at h2
    constructor
    · intro u hu he
      apply h2.1
      rw [hu, ← he]; simp
    · intro c hc he
      apply h2.1
      rw [← he]
      simp only [coordinates, List.mem_append, Option.mem_toList] at hc
      simp only [List.mem_append]
      rcases hc with (hc | hc) | hc
      · exact .inr (.inl (coordName_mem _ c hc))
      · exact .inr (.inr (.inl (coordName_mem _ c hc)))
      · exact .inr (.inr (.inr (.inr (coordName_mem _ c hc))))
  unfold Omitted LeftOut
  have hal : (leadIt o lead).allowMasked = o.allowMasked := rfl
  rw [hal]
  constructor
  · rintro ⟨ha, f, hf, -, hp, hm⟩
    refine ⟨ha, ?_⟩
    rcases List.mem_cons.1 hf with rfl | hf
    · exact .inl hm
    · rcases (mem_its fmt fld o hr _ _ f).1 hf with ⟨v, hv, rfl⟩ | hf
      · exact absurd hp.symm (hdata v hv)
      · right
        have coord : ∀ fv c, c ∈ coordinates fld → (coordIt fv o.allowMasked (primOf fld) c).primaryMask = c.var.name →
            MaskedAt c.var (indexAt lead c.var idx) →
            (match fld.geom with
              | some g => MaskedAt g (indexAt lead g idx)
              | none => ∃ c ∈ coordinates fld, MaskedAt c.var (indexAt lead c.var idx)) := by
          intro fv c hc hp hm
          cases hg : fld.geom with
          | some g =>
            have : (coordIt fv o.allowMasked (primOf fld) c).primaryMask = g.name := by
              simp [coordIt, mkIt, primOf, hg]
            rw [this] at hp
            exact absurd hp.symm ((hgc g hg).2 c hc)
          | none => exact ⟨c, hc, hm⟩
        have nomask : ∀ (w v : Var α) i, v ∈ boundVars w → ¬ MaskedAt v i := by
          rintro w v i hv ⟨m, hm, -⟩
          rw [(boundVars_rr w v hv).2.2.2] at hm
          cases hm
        cases hf with
        | geom g h => rw [h]; exact hm
        | ugid g u h hu => exact absurd hp.symm ((hgc g h).1 u hu)
        | realization c h => exact coord _ c (by simp [coordinates, h]) hp hm
        | time c h => exact coord _ c (by simp [coordinates, h]) hp hm
        | timeBounds c v h hv => exact absurd hm (nomask _ _ _ hv)
        | level c h => exact coord _ c (by simp [coordinates, h]) hp hm
        | levelBounds c v h hv => exact absurd hm (nomask _ _ _ hv)
  · rintro ⟨ha, h⟩
    refine ⟨ha, ?_⟩
    rcases h with h | h
    · exact ⟨_, List.mem_cons_self .., ha, rfl, h⟩
    · cases hg : fld.geom with
      | some g =>
        rw [hg] at h
        exact ⟨_, List.mem_cons_of_mem _ ((mem_its fmt fld o hr _ _ _).2 (.inr (.geom g hg))), ha, rfl, h⟩
      | none =>
        rw [hg] at h
        obtain ⟨c, hc, hm⟩ := h
        have hp : ∀ fv, (coordIt fv o.allowMasked (primOf fld) c).primaryMask = c.var.name := by
          intro fv; simp [coordIt, mkIt, primOf, hg]
        simp only [coordinates, List.mem_append, Option.mem_toList] at hc
        rcases hc with (hc | hc) | hc
        · exact ⟨_, List.mem_cons_of_mem _ ((mem_its fmt fld o hr _ _ _).2 (.inr (.realization c hc))), ha, hp _, hm⟩
        · exact ⟨_, List.mem_cons_of_mem _ ((mem_its fmt fld o hr _ _ _).2 (.inr (.time c hc))), ha, hp _, hm⟩
        · exact ⟨_, List.mem_cons_of_mem _ ((mem_its fmt fld o hr _ _ _).2 (.inr (.level c hc))), ha, hp _, hm⟩

/-! ## Names -/

/-- The names of identifier and coordinates. -/
def placeNames {α : Type} (fld : Fld α) : List String :=
  ugidName fld ++ (coordNames fld.realization ++ (coordNames fld.time ++ ((if fld.time.isSome then ["YEAR", "MONTH", "DAY"] else []) ++
    coordNames fld.level)))

theorem boundsT_raw {α : Type} (s : α → α) (lead : Var α) (c : Coord α) (idx : List Nat) (lower upper : String) :
    (boundsT s lead c idx lower upper).map (·.1) = if c.var.bounds.isSome then ["lb_" ++ c.var.name, "ub_" ++ c.var.name] else [] := by
  unfold boundsT
  cases c.var.bounds <;> rfl

theorem boundsT_names {α : Type} (s : α → α) (lead : Var α) (c : Coord α) (idx : List Nat) (lower upper : String) :
    (boundsT s lead c idx lower upper).map (fun t => (t.1, t.2.1)) = boundsPairs c lower upper := by
  unfold boundsT boundsPairs
  cases c.var.bounds <;> rfl

theorem triples_raw {α : Type} (fmt : Fmt α) (tab : Bool) (fld : Fld α) (lead : Var α) (idx : List Nat) :
    ((triples fmt tab fld lead idx).map (·.1)).Sublist (placeNames fld) := by
  unfold triples placeNames
  rw [List.map_append, List.map_append, List.map_append, List.append_assoc, List.append_assoc]
  refine List.Sublist.append ?_ (List.Sublist.append ?_ ?_)
  · unfold ugidName
    cases fld.geom <;> cases fld.ugid <;> simp
  · cases fld.realization with
    | none => simp
    | some c => simp [coordNames]
  · rw [← List.append_assoc]
    refine List.Sublist.append ?_ ?_
    · cases fld.time with
      | none => simp
      | some c =>
        simp only [timeT, List.map_cons, List.map_append, boundsT_raw, coordNames, Option.isSome_some, if_true, List.cons_append]
        refine List.Sublist.cons_cons _ (List.Sublist.append (List.Sublist.refl _) ?_)
        cases tab <;> simp [partsT]
    · cases fld.level with
      | none => simp
      | some c => simp [levelT, boundsT_raw, coordNames]

theorem triples_stdNames {α : Type} (fmt : Fmt α) (tab : Bool) (fld : Fld α) (lead : Var α) (idx : List Nat) :
    ((triples fmt tab fld lead idx).map (·.2.1)).Sublist (ugidName fld ++ standardNames) := by
  have e : standardNames = ["RLZ"] ++ (["TIME", "LB_TIME", "UB_TIME", "YEAR", "MONTH", "DAY"] ++ ["LEVEL", "LB_LEVEL", "UB_LEVEL"]) := rfl
  have hb : ∀ s (c : Coord α) lower upper, ((boundsT s lead c idx lower upper).map (·.2.1)).Sublist [lower, upper] := by
    intro s c lower upper
    unfold boundsT
    cases c.var.bounds <;> simp
  unfold triples
  rw [e, List.map_append, List.map_append, List.map_append, List.append_assoc, List.append_assoc]
  refine List.Sublist.append ?_ (List.Sublist.append ?_ (List.Sublist.append ?_ ?_))
  · unfold ugidName
    cases fld.geom <;> cases fld.ugid <;> simp
  · cases fld.realization <;> simp
  · cases fld.time with
    | none => simp
    | some c =>
      simp only [timeT, List.map_cons, List.map_append, List.cons_append]
      refine List.Sublist.cons_cons _ ?_
      have : ["LB_TIME", "UB_TIME", "YEAR", "MONTH", "DAY"] = ["LB_TIME", "UB_TIME"] ++ ["YEAR", "MONTH", "DAY"] := rfl
      rw [this]
      refine List.Sublist.append (hb _ _ _ _) ?_
      cases tab <;> simp [partsT]
  · cases fld.level with
    | none => simp
    | some c =>
      simp only [levelT, List.map_cons]
      exact List.Sublist.cons_cons _ (hb _ _ _ _)

/-- Year, month and day, if there are times. -/
def parts {α : Type} (fld : Fld α) : List String := if fld.time.isSome then ["YEAR", "MONTH", "DAY"] else []

theorem mem_stdPairs {α : Type} (fmt : Fmt α) (tab : Bool) (fld : Fld α) (lead : Var α) (idx : List Nat) (heads : List String) (k v : String) :
    (k, v) ∈ stdPairs fld heads ↔ (k ∈ heads ∧ v = k) ∨ (∃ c, (k, v, c) ∈ triples fmt tab fld lead idx) ∨ (k ∈ parts fld ∧ v = k) := by
  have hb : ∀ s (c : Coord α) lower upper, (∃ x, (k, v, x) ∈ boundsT s lead c idx lower upper) ↔ (k, v) ∈ boundsPairs c lower upper := by
    intro s c lower upper
    rw [← boundsT_names s lead c idx lower upper, List.mem_map]
    constructor
    · rintro ⟨c, h⟩; exact ⟨_, h, rfl⟩
    · rintro ⟨⟨a, b, c⟩, h, he⟩
      simp only [Prod.mk.injEq] at he
      obtain ⟨rfl, rfl⟩ := he
      exact ⟨c, h⟩
  have hp : (k ∈ ["YEAR", "MONTH", "DAY"] ∧ v = k) ↔ (k, v) ∈ [("YEAR", "YEAR"), ("MONTH", "MONTH"), ("DAY", "DAY")] := by
    simp only [List.mem_cons, List.not_mem_nil, or_false, Prod.mk.injEq]
    constructor
    · rintro ⟨rfl | rfl | rfl, rfl⟩ <;> simp
    · rintro (⟨rfl, rfl⟩ | ⟨rfl, rfl⟩ | ⟨rfl, rfl⟩) <;> simp
  have hpt : ∀ c : Coord α, (∃ x, (k, v, x) ∈ partsT fmt lead c idx) → (k, v) ∈ [("YEAR", "YEAR"), ("MONTH", "MONTH"), ("DAY", "DAY")] := by
    rintro c ⟨x, h⟩
    simp only [partsT, List.mem_cons, List.not_mem_nil, or_false, Prod.mk.injEq] at h ⊢
    rcases h with ⟨h1, h2, -⟩ | ⟨h1, h2, -⟩ | ⟨h1, h2, -⟩
    · exact .inl ⟨h1, h2⟩
    · exact .inr (.inl ⟨h1, h2⟩)
    · exact .inr (.inr ⟨h1, h2⟩)
  have e0 : (k, v) ∈ heads.map (fun k => (k, k)) ↔ k ∈ heads ∧ v = k := by
    rw [List.mem_map]
    constructor
    · rintro ⟨a, ha, he⟩
      simp only [Prod.mk.injEq] at he
      obtain ⟨rfl, rfl⟩ := he
      exact ⟨ha, rfl⟩
    · rintro ⟨h, rfl⟩; exact ⟨_, h, rfl⟩
  have e : (k, v) ∈ stdPairs fld heads ↔ (k ∈ heads ∧ v = k) ∨ (∃ g u, fld.geom = some g ∧ fld.ugid = some u ∧ (k, v) = (u.name, u.name)) ∨
      (∃ c, fld.realization = some c ∧ (k, v) = (c.var.name, "RLZ")) ∨
      (∃ c, fld.time = some c ∧ ((k, v) = (c.var.name, "TIME") ∨ (k, v) ∈ boundsPairs c "LB_TIME" "UB_TIME" ∨
        (k, v) ∈ [("YEAR", "YEAR"), ("MONTH", "MONTH"), ("DAY", "DAY")])) ∨
      ∃ c, fld.level = some c ∧ ((k, v) = (c.var.name, "LEVEL") ∨ (k, v) ∈ boundsPairs c "LB_LEVEL" "UB_LEVEL") := by
    rw [← e0]
    unfold stdPairs
    simp only [List.mem_append]
    rw [or_assoc, or_assoc, or_assoc]
    refine or_congr Iff.rfl (or_congr ?_ (or_congr ?_ (or_congr ?_ ?_)))
    · cases fld.geom <;> cases fld.ugid <;> simp
    · cases fld.realization <;> simp
    · cases fld.time with
      | none => simp
      | some c => simp only [List.mem_append, List.mem_cons (a := (k, v)) (b := (c.var.name, "TIME")), Option.some.injEq, exists_eq_left', or_assoc]
    · cases fld.level with
      | none => simp
      | some c => simp only [List.mem_cons (a := (k, v)) (b := (c.var.name, "LEVEL")), Option.some.injEq, exists_eq_left']
  rw [e]
  simp only [mem_triples]
  constructor
  · rintro (h | ⟨g, u, hg, hu, h⟩ | ⟨c, hc, h⟩ | ⟨c, hc, h | h | h⟩ | ⟨c, hc, h | h⟩)
    · exact .inl h
    · simp only [Prod.mk.injEq] at h
      exact .inr (.inl ⟨_, .inl ⟨g, u, hg, hu, by rw [h.1, h.2]⟩⟩)
    · simp only [Prod.mk.injEq] at h
      exact .inr (.inl ⟨_, .inr (.inl ⟨c, hc, by rw [h.1, h.2]⟩)⟩)
    · simp only [Prod.mk.injEq] at h
      exact .inr (.inl ⟨_, .inr (.inr (.inl ⟨c, hc, by rw [h.1, h.2]; exact List.mem_append.2 (.inl (List.mem_cons_self ..))⟩))⟩)
    · obtain ⟨x, hx⟩ := (hb (if tab then fmt.str else id) c _ _).2 h
      exact .inr (.inl ⟨x, .inr (.inr (.inl ⟨c, hc, List.mem_append.2 (.inl (List.mem_cons_of_mem _ hx))⟩))⟩)
    · refine .inr (.inr ?_)
      unfold parts
      rw [hc]
      exact hp.2 h
    · simp only [Prod.mk.injEq] at h
      exact .inr (.inl ⟨_, .inr (.inr (.inr ⟨c, hc, by rw [h.1, h.2]; exact List.mem_cons_self ..⟩))⟩)
    · obtain ⟨x, hx⟩ := (hb id c _ _).2 h
      exact .inr (.inl ⟨x, .inr (.inr (.inr ⟨c, hc, List.mem_cons_of_mem _ hx⟩))⟩)
  · rintro (h | ⟨x, ⟨g, u, hg, hu, h⟩ | ⟨c, hc, h⟩ | ⟨c, hc, h⟩ | ⟨c, hc, h⟩⟩ | h)
    · exact .inl h
    · simp only [Prod.mk.injEq] at h
      exact .inr (.inl ⟨g, u, hg, hu, by rw [h.1, h.2.1]⟩)
    · simp only [Prod.mk.injEq] at h
      exact .inr (.inr (.inl ⟨c, hc, by rw [h.1, h.2.1]⟩))
    · refine .inr (.inr (.inr (.inl ⟨c, hc, ?_⟩)))
      rcases List.mem_append.1 h with h | h
      · rcases List.mem_cons.1 h with h | h
        · simp only [Prod.mk.injEq] at h
          exact .inl (by rw [h.1, h.2.1])
        · exact .inr (.inl ((hb _ c _ _).1 ⟨x, h⟩))
      · cases tab with
        | true => exact .inr (.inr (hpt c ⟨x, h⟩))
        | false => simp at h
    · refine .inr (.inr (.inr (.inr ⟨c, hc, ?_⟩)))
      rcases List.mem_cons.1 h with h | h
      · simp only [Prod.mk.injEq] at h
        exact .inl (by rw [h.1, h.2.1])
      · exact .inr ((hb _ c _ _).1 ⟨x, h⟩)
    · unfold parts at h
      cases hc : fld.time with
      | none => simp [hc] at h
      | some c =>
        rw [hc] at h
        exact .inr (.inr (.inr (.inl ⟨c, rfl, .inr (.inr (hp.1 h))⟩)))

theorem same_of_nodup {β γ : Type} (f : β → γ) : ∀ l : List β, (l.map f).Nodup → ∀ a ∈ l, ∀ b ∈ l, f a = f b → a = b
  | [], _, a, ha, _, _, _ => by simp at ha
  | x :: l, h, a, ha, b, hb, he => by
    rw [List.map_cons, List.nodup_cons] at h
    rcases List.mem_cons.1 ha with h1 | h1 <;> rcases List.mem_cons.1 hb with h2 | h2
    · rw [h1, h2]
    · rw [h1] at he
      exact absurd (he ▸ List.mem_map_of_mem h2) h.1
    · rw [h2] at he
      exact absurd (he ▸ List.mem_map_of_mem h1) h.1
    · exact same_of_nodup f l h.2 a h1 b h2 he

theorem stdPairs_raw {α : Type} (fld : Fld α) (hr : ∀ c, fld.realization = some c → c.var.bounds = none) :
    (stdPairs fld []).map (·.1) = placeNames fld := by
  unfold stdPairs placeNames ugidName coordNames boundsPairs
  simp only [List.map_nil, List.nil_append, List.map_append, List.append_assoc]
  congr 1
  · cases fld.geom <;> cases fld.ugid <;> rfl
  · congr 1
    · cases hc : fld.realization with
      | none => rfl
      | some c => simp [hr c hc]
    · rw [← List.append_assoc]
      congr 1
      · cases fld.time with
        | none => rfl
        | some c =>
          simp only
          split <;> rfl
      · cases fld.level with
        | none => rfl
        | some c =>
          simp only
          split <;> rfl

/-- The names under which a record is renamed do not clash. -/
structure Apart {α : Type} (fld : Fld α) (names : List String) (reps : List String) : Prop where
  place : (placeNames fld).Nodup
  namesPlace : ∀ n ∈ names, n ∉ placeNames fld
  std : ∀ n ∈ standardNames, n ∉ names ∧ n ∉ ugidName fld ∧ n ∉ reps
  reps : ∀ n ∈ reps, n ∉ placeNames fld ∧ n ∉ names

/-- Renaming to the standard names. -/
theorem rename_field {α : Type} (fmt : Fmt α) (tab melted : Bool) (fld : Fld α) (lead : Var α) (idx : List Nat) (heads names : List String)
    (R D : List (String × Cell α)) (row : Row α) (bad : String → Prop)
    (hrz : ∀ c, fld.realization = some c → c.var.bounds = none)
    (ha : Apart fld names (R.map (·.1))) (hheads : ∀ n, n ∈ heads ↔ n ∈ R.map (·.1)) (hD : ∀ p ∈ D, p.1 ∈ names)
    (hDu : ∀ k c c', (k, c) ∈ D → (k, c') ∈ D → c = c') (hRu : ∀ k c c', ¬ bad k → (k, c) ∈ R → (k, c') ∈ R → c = c')
    (hbad : ∀ n ∈ placeNames fld, ¬ bad n) (hr : (row.map (·.1)).Nodup)
    (hrow : ∀ k c, ¬ bad k → (Dict.get? row k = some c ↔ (k, c) ∈ R ∨ (k, c) ∈ D ∨ ∃ s, (k, s, c) ∈ triples fmt tab fld lead idx))
    (hvar : melted = true → (∃ a, Dict.get? row "VARIABLE" = some a) ∧ (∃ b, Dict.get? row "VALUE" = some b) ∧
      ¬ bad "VARIABLE" ∧ ¬ bad "VALUE" ∧ "VARIABLE" ∈ names ∧ "VALUE" ∈ names) :
    ∃ row', applyMap false melted ((stdPairs fld heads).foldl (fun m p => Dict.set m p.1 p.2) []) row = .ok row' ∧ (row'.map (·.1)).Nodup ∧
      ∀ h c, ¬ bad h → (Dict.get? row' h = some c ↔ (h, c) ∈ R ∨ (h, c) ∈ D ∨ (h, c) ∈ standardColumns fmt tab fld lead idx) := by
  have hnd := stdPairs_raw fld hrz
  have place : ∀ k v, (k, v) ∈ stdPairs fld [] ↔ (∃ c, (k, v, c) ∈ triples fmt tab fld lead idx) ∨ (k ∈ parts fld ∧ v = k) := by
    intro k v
    rw [mem_stdPairs fmt tab fld lead idx]
    simp
  have inPlace : ∀ k v, (k, v) ∈ stdPairs fld [] → k ∈ placeNames fld := by
    intro k v h
    rw [← hnd]
    exact List.mem_map_of_mem (f := (·.1)) h
  have uniq : ∀ k v v', (k, v) ∈ stdPairs fld [] → (k, v') ∈ stdPairs fld [] → v = v' := by
    intro k v v' h h'
    have := same_of_nodup (·.1) (stdPairs fld []) (by rw [hnd]; exact ha.place) (k, v) h (k, v') h' rfl
    injection this
  have inR : ∀ k, k ∈ R.map (·.1) ↔ ∃ c, (k, c) ∈ R := by
    intro k
    rw [List.mem_map]
    constructor
    · rintro ⟨⟨a, c⟩, h, rfl⟩; exact ⟨c, h⟩
    · rintro ⟨c, h⟩; exact ⟨_, h, rfl⟩
  have pairs : ∀ k v, (k, v) ∈ stdPairs fld heads ↔ (k ∈ R.map (·.1) ∧ v = k) ∨ (k, v) ∈ stdPairs fld [] := by
    intro k v
    rw [mem_stdPairs fmt tab fld lead idx, place, hheads]
  have cons : ∀ k y z, (k, y) ∈ stdPairs fld heads → (k, z) ∈ stdPairs fld heads → y = z := by
    intro k y z hy hz
    rcases (pairs k y).1 hy with ⟨h1, h1'⟩ | h1 <;> rcases (pairs k z).1 hz with ⟨h2, h2'⟩ | h2
    · rw [h1', h2']
    · exact absurd (inPlace _ _ h2) (ha.reps _ h1).1
    · exact absurd (inPlace _ _ h1) (ha.reps _ h2).1
    · exact uniq _ _ _ h1 h2
  have hmn := fold_nodup (stdPairs fld heads) [] (by simp)
  have hm : ∀ k v, (k, v) ∈ (stdPairs fld heads).foldl (fun m p => Dict.set m p.1 p.2) [] ↔ (k, v) ∈ stdPairs fld heads := by
    intro k v
    rw [mem_iff_get _ hmn, fold_get _ _ _ (cons k)]
  have tp : ∀ k s c, (k, s, c) ∈ triples fmt tab fld lead idx → k ∈ placeNames fld :=
    fun k s c h => inPlace k s ((place k s).2 (.inl ⟨c, h⟩))
  have ts : ∀ k s c, (k, s, c) ∈ triples fmt tab fld lead idx → s ∈ ugidName fld ++ standardNames :=
    fun k s c h => (triples_stdNames fmt tab fld lead idx).mem (List.mem_map_of_mem (f := fun t => t.2.1) h)
  have su : ∀ s, s ∈ ugidName fld → s ∈ placeNames fld := by
    intro s h
    unfold placeNames
    exact List.mem_append.2 (.inl h)
  have hstd : (ugidName fld ++ standardNames).Nodup := by
    refine List.nodup_append.2 ⟨?_, by decide, ?_⟩
    · unfold ugidName
      split <;> simp
    · intro a h1 b h2 he
      subst he
      exact (ha.std a h2).2.1 h1
  have notR : ∀ s, s ∈ ugidName fld ++ standardNames → s ∉ R.map (·.1) := by
    intro s h hx
    rcases List.mem_append.1 h with h | h
    · exact (ha.reps s hx).1 (su s h)
    · exact (ha.std s h).2.2 hx
  have notD : ∀ s, s ∈ ugidName fld ++ standardNames → s ∉ names := by
    intro s h hx
    rcases List.mem_append.1 h with h | h
    · exact ha.namesPlace s hx (su s h)
    · exact (ha.std s h).1 hx
  have py : ∀ k, k ∈ parts fld → k ∈ placeNames fld := fun k h => inPlace k k ((place k k).2 (.inr ⟨h, rfl⟩))
  have notmap : ∀ n, n ∈ names → ∀ s, (n, s) ∉ (stdPairs fld heads).foldl (fun m p => Dict.set m p.1 p.2) [] := by
    intro n hn s hx
    rw [hm, pairs] at hx
    rcases hx with ⟨h, -⟩ | h
    · exact (ha.reps n h).2 hn
    · exact ha.namesPlace n hn (inPlace _ _ h)
  obtain ⟨row', h1, h2, h3⟩ := rename_get melted ((stdPairs fld heads).foldl (fun m p => Dict.set m p.1 p.2) []) row R D
    (triples fmt tab fld lead idx) (parts fld) bad hmn hr hrow
    (fun k v => by
      rw [hm, pairs, place, inR])
    (fun k c s c' h h' => (ha.reps k ((inR k).2 ⟨c, h⟩)).1 (tp _ _ _ h'))
    (fun k c s c' h h' => ha.namesPlace k (hD _ h) (tp _ _ _ h'))
    (fun k c c' h h' => (ha.reps k ((inR k).2 ⟨c, h⟩)).2 (hD _ h'))
    (fun k c h h' => ha.namesPlace k (hD _ h) (py k h'))
    (fun k s c h h' => uniq k s k ((place k s).2 (.inl ⟨c, h'⟩)) ((place k k).2 (.inr ⟨h, rfl⟩)))
    hRu hDu
    (fun k k' s c c' h h' => by
      have := same_of_nodup (fun t => t.2.1) _ ((triples_stdNames fmt tab fld lead idx).nodup hstd) _ h _ h' rfl
      injection this with _ this
      injection this)
    (fun k s c c' h h' => notD s (ts _ _ _ h) (hD _ h'))
    (fun k s c c' h h' => notR s (ts _ _ _ h) ((inR s).2 ⟨c', h'⟩))
    (fun k s c h => hbad k (tp _ _ _ h))
    (fun he => by
      obtain ⟨a1, a2, a3, a4, a5, a6⟩ := hvar he
      exact ⟨a1, a2, fun s => ⟨a3, notmap _ a5 s⟩, fun s => ⟨a4, notmap _ a6 s⟩⟩)
  refine ⟨row', h1, h2, ?_⟩
  intro h c hb
  rw [h3 h c hb, triples_std]

/-! ## Whole records -/

/-- The name of the geometry. -/
def geomName {α : Type} (fld : Fld α) : List String := (fld.geom.map Var.name).toList

theorem rawNames_eq {α : Type} (fld : Fld α) (o : Opts α) :
    rawNames fld o = (fld.data ++ o.followers).map Var.name ++ (geomName fld ++ placeNames fld) := by
  unfold rawNames geomName placeNames ugidName
  simp only [List.append_assoc]
  congr 1
  cases fld.geom with
  | none => simp
  | some g => cases fld.ugid <;> simp

theorem mem_allReps {α : Type} (fld : Fld α) (o : Opts α) (lead : Var α) (rest : List (Var α)) (hd : fld.data = lead :: rest) (p : String × α) :
    p ∈ allReps fld o lead (o.followers ++ rest) ↔ p ∈ allRepeated fld o := by
  unfold allReps allRepeated fieldRepeated placeRepeated
  rw [hd]
  simp only [List.mem_append, List.flatMap_cons, List.flatMap_append, or_assoc]
  constructor
  · rintro (h | h | h | h | h | h | h | h)
    · exact .inl h
    · exact .inr (.inr (.inr (.inr (.inr (.inr (.inl h))))))
    · exact .inr (.inl h)
    · exact .inr (.inr (.inr (.inr (.inr (.inr (.inr h))))))
    · exact .inr (.inr (.inl h))
    · exact .inr (.inr (.inr (.inl h)))
    · exact .inr (.inr (.inr (.inr (.inl h))))
    · exact .inr (.inr (.inr (.inr (.inr (.inl h)))))
  · rintro (h | h | h | h | h | h | h | h)
    · exact .inl h
    · exact .inr (.inr (.inl h))
    · exact .inr (.inr (.inr (.inr (.inl h))))
    · exact .inr (.inr (.inr (.inr (.inr (.inl h)))))
    · exact .inr (.inr (.inr (.inr (.inr (.inr (.inl h))))))
    · exact .inr (.inr (.inr (.inr (.inr (.inr (.inr h))))))
    · exact .inr (.inl h)
    · exact .inr (.inr (.inr (.inl h)))

/-- The arguments after which records are iterated, and the header map. -/
theorem fieldIter_eq {α : Type} (fmt : Fmt α) (fld : Fld α) (o : Opts α) (size : String → Nat) (lead : Var α) (rest : List (Var α))
    (hd : fld.data = lead :: rest) (he : fld.isEmpty = false) (hs : o.standardize = true) (hp : o.primaryMask = none)
    (hh : o.headerMap = none) (hv : o.variable_ = none) (hf : FieldFits size fld o lead) :
    ∃ heads, (∀ n, n ∈ heads ↔ n ∈ (cells (allRepeated fld o)).map (·.1)) ∧
      fieldIter fmt fld o = records fld o lead (argsOf fmt fld o (o.followers ++ rest))
        (some ((stdPairs fld heads).foldl (fun m p => Dict.set m p.1 p.2) [])) (if o.melted then some fld.data else none) := by
  have hvs : ∀ v ∈ o.followers ++ rest, v ∈ fld.data ++ o.followers := by
    intro v hv
    rw [hd]
    rcases List.mem_append.1 hv with h | h <;> simp [h]
  have hmk := mkIterator_eq (mkIt lead true none none true) (argsOf fmt fld o (o.followers ++ rest)) none
    (fun f hfm => (follows_its fmt fld o size lead _ _ rfl hf hvs f hfm).subset)
  refine ⟨addNames ((o.repeaters.getD []).map Prod.fst) (treeHeaders (.mk (mkIt lead true none none true)
    ((flattenArgs (argsOf fmt fld o (o.followers ++ rest))).map fun a => attachT (mkIt lead true none none true)
      (argTree (mkIt lead true none none true) a)))), ?_, ?_⟩
  · intro n
    rw [mem_addNames, mem_headers fmt fld o hf.realization]
    have hn : n ∈ (cells (allRepeated fld o)).map (·.1) ↔ ∃ p ∈ allReps fld o lead (o.followers ++ rest), p.1 = n := by
      unfold cells
      simp only [List.map_map, List.mem_map, Function.comp_apply, mem_allReps fld o lead rest hd]
    rw [hn]
    constructor
    · rintro (h | ⟨f, hfm, p, hpm, rfl⟩)
      · obtain ⟨p, hpm, rfl⟩ := List.mem_map.1 h
        exact ⟨p, by simp [allReps, hpm], rfl⟩
      · refine ⟨p, ?_, rfl⟩
        rcases List.mem_cons.1 hfm with rfl | hfm
        · rcases (mem_join none lead.repeatRecord p).1 hpm with h | h
          · simp at h
          · simp [allReps, h]
        · rcases (mem_its fmt fld o hf.realization _ _ f).1 hfm with ⟨v, hvm, rfl⟩ | hi
          · rcases (mem_join none v.repeatRecord p).1 hpm with h | h
            · simp at h
            · unfold allReps
              exact List.mem_append.2 (.inl (List.mem_append.2 (.inr (List.mem_flatMap.2 ⟨v, List.mem_cons_of_mem _ hvm, h⟩))))
          · exact List.mem_append.2 (.inr ((reps_isIt fmt fld o hf.did p).1 ⟨f, hi, hpm⟩))
    · rintro ⟨p, hpm, rfl⟩
      unfold allReps at hpm
      rcases List.mem_append.1 hpm with h | h
      · rcases List.mem_append.1 h with h | h
        · exact .inl (List.mem_map_of_mem h)
        · obtain ⟨v, hvm, h2⟩ := List.mem_flatMap.1 h
          right
          rcases List.mem_cons.1 hvm with hl | hvm
          · subst hl
            exact ⟨_, List.mem_cons_self .., p, (mem_join none _ p).2 (.inr h2), rfl⟩
          · exact ⟨_, List.mem_cons_of_mem _ ((mem_its fmt fld o hf.realization _ _ _).2 (.inl ⟨v, hvm, rfl⟩)), p,
              (mem_join none _ p).2 (.inr h2), rfl⟩
      · obtain ⟨f, hi, h2⟩ := (reps_isIt fmt fld o hf.did p).2 h
        exact .inr ⟨f, List.mem_cons_of_mem _ ((mem_its fmt fld o hf.realization _ _ _).2 (.inr hi)), p, h2, rfl⟩
  · unfold fieldIter
    have hl : leadOf fld o = .ok (lead, rest) := by simp [leadOf, hv, hd]
    have hmo : meltedOf fld o = .ok (if o.melted then some fld.data else none) := by
      unfold meltedOf
      rw [hv]
      cases o.melted <;> rfl
    rw [he, hs, hl]
    simp only [Bool.false_eq_true, if_false, Bool.not_true, Bool.and_false]
    rw [coordArgs_ok fmt fld o size lead hs hp hf]
    simp only
    rw [show (o.followers ++ rest).map Arg.var ++ (treesOf fmt fld o).map Arg.iter = argsOf fmt fld o (o.followers ++ rest) from rfl, hmk]
    simp only
    rw [hmo]
    simp only [headerMapOf, hs, hh, if_true]

/-- The rows before geometry and names are dealt with. -/
theorem rows_field {α : Type} (fmt : Fmt α) (fld : Fld α) (o : Opts α) (size : String → Nat) (lead : Var α) (rest : List (Var α))
    (hd : fld.data = lead :: rest) (hf : FieldFits size fld o lead) (hn : (rawNames fld o).Nodup)
    (melted : Option (List String)) (reps : String → List (String × α)) :
    ∃ (fs : List (Tree α)) (ps : List (List Nat)), mkIterator (leadIt o lead) (some (argsOf fmt fld o (o.followers ++ rest))) melted = .ok (.mk (leadIt o lead) fs) ∧
      (fs.isEmpty = true ↔ o.followers ++ rest = [] ∧ treesOf fmt fld o = []) ∧
      ps.Pairwise (· < ·) ∧ (∀ idx, idx ∈ ps ↔ IdxIn lead.shape idx ∧ ¬ LeftOut fld o lead idx) ∧
      rows (.mk (leadIt o lead) fs) melted reps =
        match (ps.map (recordRowF (leadIt o lead) (leadIt o lead :: followersOf (leadIt o lead) (argsOf fmt fld o (o.followers ++ rest))))).mapM
          (emit (!fs.isEmpty) melted reps) with
        | .error e => .error e
        | .ok out => .ok out.flatten := by
  have hvs : ∀ v ∈ o.followers ++ rest, v ∈ fld.data ++ o.followers := by
    intro v hv
    rw [hd]
    rcases List.mem_append.1 hv with h | h <;> simp [h]
  have hfol := follows_its fmt fld o size lead (o.followers ++ rest) (leadIt o lead) rfl hf hvs
  have hmk := mkIterator_eq (leadIt o lead) (argsOf fmt fld o (o.followers ++ rest)) melted (fun f hfm => (hfol f hfm).subset)
  have hlead : Leads size (leadIt o lead) := ⟨rfl, (hf.vars lead (by rw [hd]; simp)).1, rfl, rfl⟩
  have hpos := kept_positions (leadIt o lead) (leadIt o lead :: followersOf (leadIt o lead) (argsOf fmt fld o (o.followers ++ rest)))
  refine ⟨_, _, hmk, ?_, hpos.rowMajor, ?_, rowsF_general size (leadIt o lead) _ _ ?_ hlead hfol ?_ melted reps⟩
  · rw [List.isEmpty_iff, List.map_eq_nil_iff]
    constructor
    · intro h
      constructor
      · cases hv : o.followers ++ rest with
        | nil => rfl
        | cons v vs =>
          have : Arg.var v ∈ flattenArgs (argsOf fmt fld o (o.followers ++ rest)) := (mem_flatten fmt fld o _ _).2 (.inl ⟨v, by rw [hv]; simp, rfl⟩)
          rw [h] at this
          simp at this
      · cases ht : treesOf fmt fld o with
        | nil => rfl
        | cons t ts =>
          cases hT : t with
          | mk f gs =>
            have : Arg.iter (.mk f gs) ∈ flattenArgs (argsOf fmt fld o (o.followers ++ rest)) :=
              (mem_flatten fmt fld o _ _).2 (.inr ⟨t, by rw [ht]; simp, by rw [hT, flattenTree]; exact List.mem_cons_self ..⟩)
            rw [h] at this
            simp at this
    · rintro ⟨h1, h2⟩
      simp [argsOf, h1, h2, flattenArgs]
  · intro idx
    rw [hpos.mem, left_out fmt fld o hf.realization lead rest hd hn]
    exact Iff.rfl
  · rw [followersOf, List.map_map, List.map_map]
    apply List.map_congr_left
    intro a _
    simp only [Function.comp_apply]
    cases argTree (leadIt o lead) a with
    | mk f gs => rfl
  · intro ha f hfm
    rw [allow_its fmt fld o hf.realization lead _ f hfm]
    exact ha

/-- The pairs of a record. -/
theorem pairs_field {α : Type} (fmt : Fmt α) (fld : Fld α) (o : Opts α) (size : String → Nat) (lead : Var α) (rest : List (Var α))
    (hd : fld.data = lead :: rest) (hf : FieldFits size fld o lead) (idx : List Nat) (k : String) (c : Cell α) :
    (k, c) ∈ recordPairs (leadIt o lead) (leadIt o lead :: followersOf (leadIt o lead) (argsOf fmt fld o (o.followers ++ rest))) idx ↔
      (k, c) ∈ cells (allRepeated fld o) ∨ (k, c) ∈ (fld.data ++ o.followers).map (fun v => column lead v idx v.name) ∨
      (∃ g, fld.geom = some g ∧ (k, c) = column lead g idx g.name) ∨ ∃ t, (k, t, c) ∈ triples fmt o.tabular fld lead idx := by
  rw [mem_recordPairs fmt fld o lead _ idx hf.realization hf.did]
  have e1 : (∃ r ∈ allReps fld o lead (o.followers ++ rest), (k, c) = (r.1, Cell.data (some r.2))) ↔ (k, c) ∈ cells (allRepeated fld o) := by
    unfold cells
    rw [List.mem_map]
    constructor
    · rintro ⟨r, h, he⟩; exact ⟨r, (mem_allReps fld o lead rest hd r).1 h, he.symm⟩
    · rintro ⟨r, h, he⟩; exact ⟨r, (mem_allReps fld o lead rest hd r).2 h, he.symm⟩
  have e2 : (∃ v ∈ lead :: (o.followers ++ rest), (k, c) = column lead v idx v.name) ↔
      (k, c) ∈ (fld.data ++ o.followers).map (fun v => column lead v idx v.name) := by
    rw [List.mem_map, hd]
    constructor
    · rintro ⟨v, h, he⟩
      refine ⟨v, ?_, he.symm⟩
      simp only [List.mem_cons, List.mem_append, List.cons_append] at h ⊢
      rcases h with h | h | h <;> simp [h]
    · rintro ⟨v, h, he⟩
      refine ⟨v, ?_, he.symm⟩
      simp only [List.mem_cons, List.mem_append, List.cons_append] at h ⊢
      rcases h with h | h | h <;> simp [h]
  rw [e1, e2]

theorem cells_names {α : Type} (r : List (String × α)) (n : String) : n ∈ (cells r).map (·.1) ↔ ∃ p ∈ r, p.1 = n := by
  unfold cells
  simp only [List.map_map, List.mem_map, Function.comp_apply]

theorem cells_same {α : Type} (r : List (String × α)) (k : String) (h : SameValues (r.filter fun p => p.1 == k)) (c c' : Cell α)
    (h1 : (k, c) ∈ cells r) (h2 : (k, c') ∈ cells r) : c = c' := by
  unfold cells at h1 h2
  obtain ⟨p, hp, he⟩ := List.mem_map.1 h1
  obtain ⟨q, hq, hqe⟩ := List.mem_map.1 h2
  simp only [Prod.mk.injEq] at he hqe
  obtain ⟨rfl, rfl⟩ := he
  obtain ⟨hqe, rfl⟩ := hqe
  have := h p (List.mem_filter.2 ⟨hp, by simp⟩) q (List.mem_filter.2 ⟨hq, by simp [hqe]⟩) hqe.symm
  rw [this]

theorem columns_same {α : Type} (lead : Var α) (idx : List Nat) (vs : List (Var α)) (hn : (vs.map Var.name).Nodup) (k : String) (c c' : Cell α)
    (h1 : (k, c) ∈ vs.map (fun v => column lead v idx v.name)) (h2 : (k, c') ∈ vs.map (fun v => column lead v idx v.name)) : c = c' := by
  obtain ⟨p, hp, he⟩ := List.mem_map.1 h1
  obtain ⟨q, hq, hqe⟩ := List.mem_map.1 h2
  simp only [column, Prod.mk.injEq] at he hqe
  have := same_of_nodup Var.name vs hn p hp q hq (he.1.trans hqe.1.symm)
  subst this
  rw [← he.2, ← hqe.2]

theorem columns_names {α : Type} (lead : Var α) (idx : List Nat) (vs : List (Var α)) (p : String × Cell α)
    (h : p ∈ vs.map (fun v => column lead v idx v.name)) : p.1 ∈ vs.map Var.name := by
  obtain ⟨v, hv, rfl⟩ := List.mem_map.1 h
  exact List.mem_map_of_mem hv

theorem triples_place {α : Type} (fmt : Fmt α) (tab : Bool) (fld : Fld α) (lead : Var α) (idx : List Nat) (k t : String) (c : Cell α)
    (h : (k, t, c) ∈ triples fmt tab fld lead idx) : k ∈ placeNames fld :=
  (triples_raw fmt tab fld lead idx).mem (List.mem_map_of_mem (f := (·.1)) h)

/-- The values of a record before it is renamed, at names where repeated columns agree. -/
theorem row_get {α : Type} (fmt : Fmt α) (fld : Fld α) (o : Opts α) (size : String → Nat) (lead : Var α) (rest : List (Var α))
    (hd : fld.data = lead :: rest) (hf : FieldFits size fld o lead) (hn : (rawNames fld o).Nodup)
    (hrep : ∀ p ∈ allRepeated fld o, p.1 ∉ rawNames fld o) (idx : List Nat) (k : String) (hk : SameValues ((allRepeated fld o).filter fun p => p.1 == k)) (c : Cell α) :
    Dict.get? (recordRowF (leadIt o lead) (leadIt o lead :: followersOf (leadIt o lead) (argsOf fmt fld o (o.followers ++ rest))) idx) k = some c ↔
      (k, c) ∈ cells (allRepeated fld o) ∨ (k, c) ∈ (fld.data ++ o.followers).map (fun v => column lead v idx v.name) ∨
      (∃ g, fld.geom = some g ∧ (k, c) = column lead g idx g.name) ∨ ∃ t, (k, t, c) ∈ triples fmt o.tabular fld lead idx := by
  rw [recordRowF, fold_get _ _ _ ?_, pairs_field fmt fld o size lead rest hd hf]
  rw [rawNames_eq] at hn hrep
  obtain ⟨n1, n2, n3⟩ := List.nodup_append.1 hn
  obtain ⟨-, n4, n5⟩ := List.nodup_append.1 n2
  have inC : ∀ c, (k, c) ∈ cells (allRepeated fld o) → k ∉ (fld.data ++ o.followers).map Var.name ∧ k ∉ geomName fld ∧ k ∉ placeNames fld := by
    intro c h
    obtain ⟨p, hp, he⟩ := List.mem_map.1 h
    simp only [Prod.mk.injEq] at he
    have := hrep p hp
    rw [he.1] at this
    simp only [List.mem_append, not_or] at this ⊢
    exact this
  have inG : ∀ c, (∃ g, fld.geom = some g ∧ (k, c) = column lead g idx g.name) → k ∈ geomName fld := by
    rintro c ⟨g, hg, he⟩
    simp only [column, Prod.mk.injEq] at he
    rw [geomName, hg, he.1]
    simp
  have DG : k ∈ (fld.data ++ o.followers).map Var.name → k ∉ geomName fld := fun h h' => n3 k h k (List.mem_append.2 (.inl h')) rfl
  have DP : k ∈ (fld.data ++ o.followers).map Var.name → k ∉ placeNames fld := fun h h' => n3 k h k (List.mem_append.2 (.inr h')) rfl
  have GP : k ∈ geomName fld → k ∉ placeNames fld := fun h h' => n5 k h k h' rfl
  intro y z hy hz
  rw [pairs_field fmt fld o size lead rest hd hf] at hy hz
  rcases hy with h1 | h1 | h1 | ⟨t, h1⟩ <;> rcases hz with h2 | h2 | h2 | ⟨t', h2⟩
  · exact cells_same _ k hk _ _ h1 h2
  · exact absurd (columns_names lead idx _ _ h2) (inC _ h1).1
  · exact absurd (inG _ h2) (inC _ h1).2.1
  · exact absurd (triples_place _ _ _ _ _ _ _ _ h2) (inC _ h1).2.2
  · exact absurd (columns_names lead idx _ _ h1) (inC _ h2).1
  · exact columns_same lead idx _ n1 k _ _ h1 h2
  · exact absurd (inG _ h2) (DG (columns_names lead idx _ _ h1))
  · exact absurd (triples_place _ _ _ _ _ _ _ _ h2) (DP (columns_names lead idx _ _ h1))
  · exact absurd (inG _ h1) (inC _ h2).2.1
  · exact absurd (inG _ h1) (DG (columns_names lead idx _ _ h2))
  · obtain ⟨g, hg, he⟩ := h1
    obtain ⟨g', hg', he'⟩ := h2
    rw [hg] at hg'
    injection hg' with hg'
    subst hg'
    simp only [column, Prod.mk.injEq] at he he'
    rw [he.2, he'.2]
  · exact absurd (triples_place _ _ _ _ _ _ _ _ h2) (GP (inG _ h1))
  · exact absurd (triples_place _ _ _ _ _ _ _ _ h1) (inC _ h2).2.2
  · exact absurd (triples_place _ _ _ _ _ _ _ _ h1) (DP (columns_names lead idx _ _ h2))
  · exact absurd (triples_place _ _ _ _ _ _ _ _ h1) (GP (inG _ h2))
  · have := same_of_nodup (·.1) _ ((triples_raw fmt o.tabular fld lead idx).nodup n4) _ h1 _ h2 rfl
    injection this with _ this
    injection this

/-- A record whose geometry is taken out. -/
theorem popGeom_ok {α : Type} (fld : Fld α) (lead : Var α) (idx : List Nat) (row : Row α)
    (h : ∀ g, fld.geom = some g → Dict.get? row g.name = some (.data (shownAt lead g idx))) (hr : (row.map (·.1)).Nodup) :
    ∃ row', popGeom fld.geom row = .ok (geometryCell fld lead idx, row') ∧ (row'.map (·.1)).Nodup ∧
      ∀ k, Dict.get? row' k = if k ∈ geomName fld then none else Dict.get? row k := by
  unfold popGeom geometryCell geomName
  cases hg : fld.geom with
  | none => exact ⟨row, rfl, hr, by simp⟩
  | some g =>
    refine ⟨Dict.erase row g.name, by simp [h g hg], Dict.nodup_erase _ _ hr, ?_⟩
    intro k
    rw [Dict.get?_erase]
    simp

theorem emit_plain {α : Type} (b : Bool) (reps : String → List (String × α)) (l : List (Row α)) :
    l.mapM (emit b none reps) = .ok (l.map fun r => [r]) :=
  Ocgis.Mpi.mapM_ok l _ _ fun _ _ => rfl

theorem apart_of {α : Type} (fld : Fld α) (o : Opts α) (names : List String) (repeated : List (String × α))
    (h : NamesApart fld o names repeated) (hnames : ∀ n ∈ names, n ∈ (fld.data ++ o.followers).map Var.name ∨ n ∉ rawNames fld o)
    (reps : List String) (hreps : ∀ n ∈ reps, ∃ p ∈ repeated, p.1 = n) : Apart fld names reps := by
  have hraw := h.raw
  rw [rawNames_eq] at hraw
  obtain ⟨n1, n2, n3⟩ := List.nodup_append.1 hraw
  obtain ⟨-, n4, n5⟩ := List.nodup_append.1 n2
  refine ⟨n4, ?_, ?_, ?_⟩
  · intro n hn hp
    rcases hnames n hn with h' | h'
    · exact n3 n h' n (List.mem_append.2 (.inr hp)) rfl
    · rw [rawNames_eq] at h'
      exact h' (List.mem_append.2 (.inr (List.mem_append.2 (.inr hp))))
  · intro n hn
    obtain ⟨h1, h2, h3⟩ := h.std n hn
    refine ⟨h1, h2, fun hx => ?_⟩
    obtain ⟨p, hp, he⟩ := hreps n hx
    exact h3 p hp he
  · intro n hn
    obtain ⟨p, hp, rfl⟩ := hreps n hn
    obtain ⟨h1, h2⟩ := h.repeated p hp
    rw [rawNames_eq] at h1
    exact ⟨fun hx => h1 (List.mem_append.2 (.inr (List.mem_append.2 (.inr hx)))), h2⟩

theorem same_filter {α : Type} (r : List (String × α)) (q : String × α → Bool) (h : SameValues (r.filter q)) (k : String)
    (hk : ∀ p ∈ r, p.1 = k → q p = true) : SameValues (r.filter fun p => p.1 == k) := by
  intro a ha b hb he
  obtain ⟨h1, h2⟩ := List.mem_filter.1 ha
  obtain ⟨h3, h4⟩ := List.mem_filter.1 hb
  exact h a (List.mem_filter.2 ⟨h1, hk a h1 (by simpa using h2)⟩) b (List.mem_filter.2 ⟨h3, hk b h3 (by simpa using h4)⟩) he

/-- One record, renamed. -/
theorem finish_plain {α : Type} (fmt : Fmt α) (fld : Fld α) (o : Opts α) (size : String → Nat) (lead : Var α) (rest : List (Var α))
    (hd : fld.data = lead :: rest) (hst : o.strict = false) (hf : FieldFits size fld o lead)
    (hn : NamesApart fld o ((fld.data ++ o.followers).map Var.name) (allRepeated fld o))
    (hsame : SameValues ((allRepeated fld o).filter fun p => p.1 != "CALC_KEY")) (heads : List String)
    (hheads : ∀ n, n ∈ heads ↔ n ∈ (cells (allRepeated fld o)).map (·.1)) (idx : List Nat) :
    ∃ row, finish fld.geom o.strict false (some ((stdPairs fld heads).foldl (fun m p => Dict.set m p.1 p.2) []))
        (recordRowF (leadIt o lead) (leadIt o lead :: followersOf (leadIt o lead) (argsOf fmt fld o (o.followers ++ rest))) idx)
          = .ok (geometryCell fld lead idx, row) ∧
      ∀ h c, Dict.get? row h = some c ↔ h ≠ "CALC_KEY" ∧ (h, c) ∈ recordColumns fmt fld o lead idx := by
  have hkey : ∀ k, k ≠ "CALC_KEY" → SameValues ((allRepeated fld o).filter fun p => p.1 == k) := by
    intro k hk
    exact same_filter _ _ hsame k (fun p _ he => by rw [he]; simpa using hk)
  have hget := row_get fmt fld o size lead rest hd hf hn.raw (fun p hp => (hn.repeated p hp).1) idx
  have hraw := hn.raw
  rw [rawNames_eq] at hraw
  obtain ⟨n1, n2, n3⟩ := List.nodup_append.1 hraw
  obtain ⟨-, n4, n5⟩ := List.nodup_append.1 n2
  have hck := hn.calcKey
  rw [rawNames_eq] at hck
  simp only [List.mem_append, not_or] at hck
  obtain ⟨row1, p1, p2, p3⟩ := popGeom_ok fld lead idx
    (recordRowF (leadIt o lead) (leadIt o lead :: followersOf (leadIt o lead) (argsOf fmt fld o (o.followers ++ rest))) idx)
    (by
      intro g hg
      have hne : g.name ≠ "CALC_KEY" := by
        intro he
        apply hck.2.1
        rw [geomName, hg, ← he]; simp
      exact (hget g.name (hkey _ hne) _).2 (.inr (.inr (.inl ⟨g, hg, rfl⟩))))
    (by rw [recordRowF]; exact fold_nodup _ _ (by simp))
  have hap : Apart fld ((fld.data ++ o.followers).map Var.name) ((cells (allRepeated fld o)).map (·.1)) :=
    apart_of fld o _ _ hn (fun n hx => .inl hx) _ (fun n hx => (cells_names _ n).1 hx)
  obtain ⟨row2, q1, q2, q3⟩ := rename_field fmt o.tabular false fld lead idx heads ((fld.data ++ o.followers).map Var.name)
    (cells (allRepeated fld o)) ((fld.data ++ o.followers).map fun v => column lead v idx v.name) row1 (fun k => k = "CALC_KEY")
    hf.realization hap hheads (fun p hp => columns_names lead idx _ p hp) (columns_same lead idx _ n1)
    (fun k c c' hk h1 h2 => cells_same _ k (hkey k hk) c c' h1 h2)
    (fun n hnp he => hck.2.2 (he ▸ hnp)) p2
    (by
      intro k c hk
      rw [p3]
      split
      · next hg =>
        constructor
        · intro h; cases h
        · rintro (h | h | ⟨s, h⟩)
          · obtain ⟨p, hp, he⟩ := (cells_names _ k).1 (List.mem_map_of_mem (f := (·.1)) h)
            have := (hn.repeated p hp).1
            rw [rawNames_eq, he] at this
            exact absurd (List.mem_append.2 (.inr (List.mem_append.2 (.inl hg)))) this
          · exact absurd rfl (n3 k (columns_names lead idx _ _ h) k (List.mem_append.2 (.inl hg)))
          · exact absurd rfl (n5 k hg k (triples_place _ _ _ _ _ _ _ _ h))
      · next hg =>
        rw [hget k (hkey k hk)]
        constructor
        · rintro (h | h | ⟨g, hgm, he⟩ | h)
          · exact .inl h
          · exact .inr (.inl h)
          · exfalso
            apply hg
            simp only [column, Prod.mk.injEq] at he
            rw [geomName, hgm, he.1]; simp
          · exact .inr (.inr h)
        · rintro (h | h | h)
          · exact .inl h
          · exact .inr (.inl h)
          · exact .inr (.inr (.inr h)))
    (by intro h; cases h)
  refine ⟨Dict.erase row2 "CALC_KEY", ?_, ?_⟩
  · unfold finish
    rw [p1, hst]
    simp only [rename]
    rw [q1]
    simp
  · intro h c
    rw [Dict.get?_erase]
    split
    · next he => simp [he]
    · next he =>
      rw [q3 h c he]
      unfold recordColumns
      simp only [List.mem_append, or_assoc]
      exact ⟨fun hx => ⟨he, hx⟩, fun hx => hx.2⟩

theorem mapM_choose {β γ : Type} (f : β → Res γ) (P : β → γ → Prop) (l : List β) (h : ∀ x, ∃ y, f x = .ok y ∧ P x y) :
    ∃ g : β → γ, l.mapM f = .ok (l.map g) ∧ ∀ x, P x (g x) := by
  refine ⟨fun x => Classical.choose (h x), Ocgis.Mpi.mapM_ok l _ _ fun x _ => (Classical.choose_spec (h x)).1, fun x => (Classical.choose_spec (h x)).2⟩

/-! ## Melted records -/

/-- What a melted row holds. -/
def MeltedGet {α : Type} (reps : List (String × α)) (K : String → Prop) (r : Row α) (q : String × Cell α) (row : Row α) : Prop :=
  (row.map (·.1)).Nodup ∧ ∀ k c, Dict.get? row k = some c ↔ (k = "VARIABLE" ∧ c = .text q.1) ∨ (k = "VALUE" ∧ c = q.2) ∨ (k, c) ∈ cells reps ∨
    (k ≠ "VARIABLE" ∧ k ≠ "VALUE" ∧ ¬ K k ∧ Dict.get? r k = some c)

theorem melt_step {α : Type} (reps : List (String × α)) (K : String → Prop) (r : Row α) (m : String) (x : Cell α)
    (hK : ∀ k, (∃ p ∈ reps, p.1 = k) ↔ K k) (h1 : ¬ K "VARIABLE") (h2 : ¬ K "VALUE") (hs : SameValues reps) (hr : (r.map (·.1)).Nodup) :
    MeltedGet reps K r (m, x)
      (Dict.set (Dict.set (reps.foldl (fun r p => Dict.set r p.1 (Cell.data (some p.2))) r) "VARIABLE" (.text m)) "VALUE" x) := by
  have hf : reps.foldl (fun r p => Dict.set r p.1 (Cell.data (some p.2))) r = (cells reps).foldl (fun r p => Dict.set r p.1 p.2) r := by
    unfold cells
    rw [List.foldl_map]
  rw [hf]
  refine ⟨Dict.nodup_set _ _ _ (Dict.nodup_set _ _ _ (fold_nodup _ _ hr)), ?_⟩
  intro k c
  have nc : ∀ k, ¬ K k → ∀ c, (k, c) ∉ cells reps := by
    intro k hk c hc
    exact hk ((hK k).1 ((cells_names reps k).1 (List.mem_map_of_mem (f := (·.1)) hc)))
  rw [Dict.get?_set]
  by_cases hv : k = "VALUE"
  · subst hv
    simp only [if_true, Option.some.injEq, ne_eq, not_true_eq_false, false_and, and_false, or_false, true_and]
    constructor
    · intro h; exact .inr (.inl h.symm)
    · rintro (⟨h, -⟩ | h | h)
      · exact absurd h (by decide)
      · exact h.symm
      · exact absurd h (nc _ h2 c)
  · rw [if_neg hv, Dict.get?_set]
    by_cases hw : k = "VARIABLE"
    · subst hw
      simp only [if_true, Option.some.injEq, ne_eq, not_true_eq_false, false_and, or_false, true_and]
      constructor
      · intro h; exact .inl h.symm
      · rintro (h | ⟨h, -⟩ | h)
        · exact h.symm
        · exact absurd h hv
        · exact absurd h (nc _ h1 c)
    · rw [if_neg hw]
      by_cases hk : K k
      · obtain ⟨p, hp, rfl⟩ := (hK k).2 hk
        have hpc : (p.1, Cell.data (some p.2)) ∈ cells reps := List.mem_map.2 ⟨p, hp, rfl⟩
        have uniq : ∀ q ∈ cells reps, q.1 = p.1 → q.2 = Cell.data (some p.2) := by
          intro q hq he
          obtain ⟨p', hp', rfl⟩ := List.mem_map.1 hq
          simp only at he ⊢
          rw [hs p' hp' p hp he]
        rw [(foldl_set_get (cells reps) r p.1).1 _ uniq ⟨_, hpc, rfl⟩]
        constructor
        · intro h
          injection h with h
          subst h
          exact .inr (.inr (.inl hpc))
        · rintro (⟨h, -⟩ | ⟨h, -⟩ | h | ⟨-, -, h, -⟩)
          · exact absurd h hw
          · exact absurd h hv
          · exact congrArg some (uniq _ h rfl).symm
          · exact absurd hk h
      · rw [(foldl_set_get (cells reps) r k).2 (by
          intro p hp he
          have := nc k hk p.2
          rw [← he] at this
          exact this hp)]
        constructor
        · intro h; exact .inr (.inr (.inr ⟨hw, hv, hk, h⟩))
        · rintro (⟨h, -⟩ | ⟨h, -⟩ | h | ⟨-, -, -, h⟩)
          · exact absurd h hw
          · exact absurd h hv
          · exact absurd h (nc k hk c)
          · exact h

theorem meltRows_fn {α : Type} (reps : String → List (String × α)) (K : String → Prop) (h1 : ¬ K "VARIABLE") (h2 : ¬ K "VALUE")
    (l : List (String × Cell α)) (hK : ∀ q ∈ l, ∀ k, (∃ p ∈ reps q.1, p.1 = k) ↔ K k) (hs : ∀ q ∈ l, SameValues (reps q.1))
    (hnd : (l.map (·.1)).Nodup) (r : Row α) (hr : (r.map (·.1)).Nodup) :
    ∃ f : String → Row α, meltRows reps l r = l.map (fun q => f q.1) ∧ ∀ q ∈ l, MeltedGet (reps q.1) K r q (f q.1) := by
  induction l generalizing r with
  | nil => exact ⟨fun _ => [], rfl, by simp⟩
  | cons q l ih =>
    obtain ⟨m, x⟩ := q
    have hstep := melt_step (reps m) K r m x (hK (m, x) (by simp)) h1 h2 (hs (m, x) (by simp)) hr
    rw [List.map_cons, List.nodup_cons] at hnd
    obtain ⟨f, e1, e2⟩ := ih (fun q hq => hK q (by simp [hq])) (fun q hq => hs q (by simp [hq])) hnd.2 _ hstep.1
    refine ⟨fun n => if n = m then Dict.set (Dict.set ((reps m).foldl (fun r p => Dict.set r p.1 (Cell.data (some p.2))) r) "VARIABLE" (.text m))
      "VALUE" x else f n, ?_, ?_⟩
    · rw [meltRows, List.map_cons, e1]
      simp only [if_true]
      congr 1
      apply List.map_congr_left
      intro q hq
      rw [if_neg]
      rintro rfl
      exact hnd.1 (List.mem_map_of_mem (f := (·.1)) hq)
    · intro q hq
      rcases List.mem_cons.1 hq with rfl | hq
      · simp only [if_true]
        exact hstep
      · have hne : q.1 ≠ m := by
          intro he
          exact hnd.1 (he ▸ List.mem_map_of_mem (f := (·.1)) hq)
        simp only [if_neg hne]
        obtain ⟨g1, g2⟩ := e2 q hq
        refine ⟨g1, ?_⟩
        intro k c
        rw [g2 k c]
        have hsame : ∀ k c, k ≠ "VARIABLE" → k ≠ "VALUE" → ¬ K k → (Dict.get? (Dict.set (Dict.set ((reps m).foldl
            (fun r p => Dict.set r p.1 (Cell.data (some p.2))) r) "VARIABLE" (.text m)) "VALUE" x) k = some c ↔ Dict.get? r k = some c) := by
          intro k c a b d
          rw [hstep.2 k c]
          constructor
          · rintro (⟨h, -⟩ | ⟨h, -⟩ | h | ⟨-, -, -, h⟩)
            · exact absurd h a
            · exact absurd h b
            · exact absurd ((hK (m, x) (by simp) k).1 ((cells_names _ k).1 (List.mem_map_of_mem (f := (·.1)) h))) d
            · exact h
          · intro h; exact .inr (.inr (.inr ⟨a, b, d, h⟩))
        constructor
        · rintro (h | h | h | ⟨a, b, d, h⟩)
          · exact .inl h
          · exact .inr (.inl h)
          · exact .inr (.inr (.inl h))
          · exact .inr (.inr (.inr ⟨a, b, d, (hsame k c a b d).1 h⟩))
        · rintro (h | h | h | ⟨a, b, d, h⟩)
          · exact .inl h
          · exact .inr (.inl h)
          · exact .inr (.inr (.inl h))
          · exact .inr (.inr (.inr ⟨a, b, d, (hsame k c a b d).2 h⟩))

theorem popAll_nodup {α : Type} (ms : List String) (r : Row α) (xs : List (Cell α)) (r' : Row α) (h : popAll ms r = .ok (xs, r'))
    (hr : (r.map (·.1)).Nodup) : (r'.map (·.1)).Nodup := by
  induction ms generalizing r xs with
  | nil =>
    simp only [popAll, Except.ok.injEq, Prod.mk.injEq] at h
    rw [← h.2]; exact hr
  | cons m ms ih =>
    rw [popAll] at h
    cases hg : Dict.get? r m with
    | none => rw [hg] at h; cases h
    | some x =>
      rw [hg] at h
      cases hp : popAll ms (Dict.erase r m) with
      | error e => rw [hp] at h; cases h
      | ok y =>
        obtain ⟨ys, r2⟩ := y
        rw [hp] at h
        simp only [Except.ok.injEq, Prod.mk.injEq] at h
        obtain ⟨-, rfl⟩ := h
        exact ih _ _ hp (Dict.nodup_erase _ _ hr)

theorem meltedReps_eq {α : Type} (vs : List (Var α)) (hn : (vs.map Var.name).Nodup) (v : Var α) (hv : v ∈ vs) :
    meltedReps vs v.name = v.repeatRecord.getD [] := by
  unfold meltedReps
  have : vs.reverse.find? (fun w => w.name == v.name) = some v := by
    cases hfi : vs.reverse.find? (fun w => w.name == v.name) with
    | none =>
      have := List.find?_eq_none.1 hfi v (by simpa using hv)
      simp at this
    | some w =>
      have h1 := List.mem_of_find?_eq_some hfi
      have h2 := List.find?_some hfi
      rw [same_of_nodup Var.name vs hn w (by simpa using h1) v hv (by simpa using h2)]
  rw [this]
  rfl

/-- One melted record, renamed. -/
theorem finish_melted {α : Type} (fmt : Fmt α) (fld : Fld α) (o : Opts α) (size : String → Nat) (lead : Var α) (rest : List (Var α))
    (hd : fld.data = lead :: rest) (hst : o.strict = false) (hf : FieldFits size fld o lead)
    (hn : NamesApart fld o (o.followers.map Var.name ++ ["VARIABLE", "VALUE"]) (allRepeated fld o))
    (hvv : "VARIABLE" ∉ rawNames fld o ∧ "VALUE" ∉ rawNames fld o)
    (hkeys : ∀ v ∈ fld.data, ∀ w ∈ fld.data, ∀ p ∈ v.repeatRecord.getD [], ∃ q ∈ w.repeatRecord.getD [], q.1 = p.1)
    (hsame : ∀ v ∈ fld.data, SameValues (fieldRepeated fld o ++ v.repeatRecord.getD [])) (heads : List String)
    (hheads : ∀ n, n ∈ heads ↔ n ∈ (cells (allRepeated fld o)).map (·.1)) (idx : List Nat) :
    ∃ (mr : List (Row α)), emit true (some (fld.data.map Var.name)) (meltedReps fld.data)
        (recordRowF (leadIt o lead) (leadIt o lead :: followersOf (leadIt o lead) (argsOf fmt fld o (o.followers ++ rest))) idx) = .ok mr ∧
      ∃ row : Var α → Row α,
        mr.mapM (finish fld.geom o.strict true (some ((stdPairs fld heads).foldl (fun m p => Dict.set m p.1 p.2) [])))
          = .ok (fld.data.map fun v => (geometryCell fld lead idx, row v)) ∧
        ∀ v ∈ fld.data, ∀ h c, Dict.get? (row v) h = some c ↔ (h, c) ∈ meltedRecordColumns fmt fld o lead v idx := by
  let K : String → Prop := fun k => ∃ p ∈ lead.repeatRecord.getD [], p.1 = k
  have hlead : lead ∈ fld.data := by rw [hd]; simp
  have hK : ∀ v ∈ fld.data, ∀ k, (∃ p ∈ v.repeatRecord.getD [], p.1 = k) ↔ K k := by
    intro v hv k
    constructor
    · rintro ⟨p, hp, rfl⟩
      exact hkeys v hv lead hlead p hp
    · rintro ⟨p, hp, rfl⟩
      exact hkeys lead hlead v hv p hp
  have inAll : ∀ p, p ∈ allRepeated fld o ↔ p ∈ fieldRepeated fld o ∨ ∃ v ∈ fld.data, p ∈ v.repeatRecord.getD [] := by
    intro p
    unfold allRepeated
    rw [List.mem_append, List.mem_flatMap]
  have Kin : ∀ k, K k → ∃ p ∈ allRepeated fld o, p.1 = k := by
    rintro k ⟨p, hp, rfl⟩
    exact ⟨p, (inAll p).2 (.inr ⟨lead, hlead, hp⟩), rfl⟩
  have hraw := hn.raw
  rw [rawNames_eq] at hraw
  obtain ⟨n1, n2, n3⟩ := List.nodup_append.1 hraw
  obtain ⟨-, n4, n5⟩ := List.nodup_append.1 n2
  have ndata : (fld.data.map Var.name).Nodup := by
    rw [List.map_append] at n1
    exact (List.nodup_append.1 n1).1
  have nfol : (o.followers.map Var.name).Nodup := by
    rw [List.map_append] at n1
    exact (List.nodup_append.1 n1).2.1
  have dataFol : ∀ k, k ∈ fld.data.map Var.name → k ∉ o.followers.map Var.name := by
    rw [List.map_append] at n1
    exact fun k h h' => (List.nodup_append.1 n1).2.2 k h k h' rfl
  have repRaw : ∀ k, (∃ p ∈ allRepeated fld o, p.1 = k) → k ∉ rawNames fld o := by
    rintro k ⟨p, hp, rfl⟩
    exact (hn.repeated p hp).1
  have repVar : ∀ k, (∃ p ∈ allRepeated fld o, p.1 = k) → k ≠ "VARIABLE" ∧ k ≠ "VALUE" := by
    rintro k ⟨p, hp, rfl⟩
    have := (hn.repeated p hp).2
    constructor
    · intro he; apply this; rw [he]; simp
    · intro he; apply this; rw [he]; simp
  have sameAt : ∀ k, ¬ K k → SameValues ((allRepeated fld o).filter fun p => p.1 == k) := by
    intro k hk a ha b hb he
    obtain ⟨h1, h2⟩ := List.mem_filter.1 ha
    obtain ⟨h3, h4⟩ := List.mem_filter.1 hb
    have h2 : a.1 = k := by simpa using h2
    have h4 : b.1 = k := by simpa using h4
    have fr : ∀ p, p ∈ allRepeated fld o → p.1 = k → p ∈ fieldRepeated fld o := by
      intro p hp hpk
      rcases (inAll p).1 hp with h | ⟨v, hv, h⟩
      · exact h
      · exact absurd ((hK v hv k).1 ⟨p, h, hpk⟩) hk
    exact hsame lead hlead a (List.mem_append.2 (.inl (fr a h1 h2))) b (List.mem_append.2 (.inl (fr b h3 h4))) he
  have hget := row_get fmt fld o size lead rest hd hf hn.raw (fun p hp => (hn.repeated p hp).1) idx
  have rawIn : ∀ k, k ∈ fld.data.map Var.name → k ∈ rawNames fld o := by
    intro k hk
    rw [rawNames_eq, List.map_append]
    exact List.mem_append.2 (.inl (List.mem_append.2 (.inl hk)))
  have notK : ∀ k, k ∈ rawNames fld o → ¬ K k := fun k hk hx => repRaw k (Kin k hx) hk
  -- the popped row
  have hr0 : ((recordRowF (leadIt o lead) (leadIt o lead :: followersOf (leadIt o lead) (argsOf fmt fld o (o.followers ++ rest))) idx).map (·.1)).Nodup := by
    rw [recordRowF]; exact fold_nodup _ _ (by simp)
  have hval : ∀ v ∈ fld.data, Dict.get? (recordRowF (leadIt o lead) (leadIt o lead :: followersOf (leadIt o lead) (argsOf fmt fld o (o.followers ++ rest))) idx)
      v.name = some (.data (shownAt lead v idx)) := by
    intro v hv
    exact (hget v.name (sameAt _ (notK _ (rawIn _ (List.mem_map_of_mem hv)))) _).2
      (.inr (.inl (List.mem_map.2 ⟨v, List.mem_append.2 (.inl hv), rfl⟩)))
  obtain ⟨r1, a1, a2, a3⟩ := popAll_ok (fld.data.map Var.name) ndata
    (recordRowF (leadIt o lead) (leadIt o lead :: followersOf (leadIt o lead) (argsOf fmt fld o (o.followers ++ rest))) idx)
    (fun n => ((Dict.get? (recordRowF (leadIt o lead) (leadIt o lead :: followersOf (leadIt o lead) (argsOf fmt fld o (o.followers ++ rest))) idx) n).getD (.text "")))
    (by
      intro m hm
      obtain ⟨v, hv, rfl⟩ := List.mem_map.1 hm
      rw [hval v hv]; rfl)
  have hr1 := popAll_nodup _ _ _ _ a1 hr0
  have hz : (fld.data.map Var.name).zip ((fld.data.map Var.name).map fun n =>
      ((Dict.get? (recordRowF (leadIt o lead) (leadIt o lead :: followersOf (leadIt o lead) (argsOf fmt fld o (o.followers ++ rest))) idx) n).getD (.text "")))
      = fld.data.map fun v => (v.name, Cell.data (shownAt lead v idx)) := by
    rw [List.map_map, List.zip_map']
    apply List.map_congr_left
    intro v hv
    simp only [Function.comp_apply, hval v hv, Option.getD_some]
  obtain ⟨f, f1, f2⟩ := meltRows_fn (meltedReps fld.data) K
    (fun h => (repVar _ (Kin _ h)).1 rfl) (fun h => (repVar _ (Kin _ h)).2 rfl)
    (fld.data.map fun v => (v.name, Cell.data (shownAt lead v idx)))
    (by
      intro q hq k
      obtain ⟨v, hv, rfl⟩ := List.mem_map.1 hq
      simp only [meltedReps_eq fld.data ndata v hv]
      exact hK v hv k)
    (by
      intro q hq
      obtain ⟨v, hv, rfl⟩ := List.mem_map.1 hq
      simp only [meltedReps_eq fld.data ndata v hv]
      exact fun a ha b hb => hsame v hv a (List.mem_append.2 (.inr ha)) b (List.mem_append.2 (.inr hb)))
    (by rw [List.map_map]; exact ndata) r1 hr1
  refine ⟨fld.data.map fun v => f v.name, ?_, ?_⟩
  · unfold emit
    simp only [if_true]
    rw [a1]
    simp only
    rw [hz, f1, List.map_map]
    rfl
  · have one : ∀ v ∈ fld.data, ∃ row, finish fld.geom o.strict true (some ((stdPairs fld heads).foldl (fun m p => Dict.set m p.1 p.2) [])) (f v.name)
        = .ok (geometryCell fld lead idx, row) ∧ ∀ h c, Dict.get? row h = some c ↔ (h, c) ∈ meltedRecordColumns fmt fld o lead v idx := by
      intro v hv
      obtain ⟨g1, g2⟩ := f2 (v.name, .data (shownAt lead v idx)) (List.mem_map.2 ⟨v, hv, rfl⟩)
      simp only [meltedReps_eq fld.data ndata v hv] at g1 g2
      have gname : ∀ g, fld.geom = some g → g.name ∈ geomName fld := by
        intro g hg
        rw [geomName, hg]; simp
      have gRaw : ∀ k, k ∈ geomName fld → k ∈ rawNames fld o := by
        intro k hk
        rw [rawNames_eq]
        exact List.mem_append.2 (.inr (List.mem_append.2 (.inl hk)))
      have gData : ∀ k, k ∈ geomName fld → k ∉ fld.data.map Var.name := by
        intro k hk hx
        exact n3 k (by rw [List.map_append]; exact List.mem_append.2 (.inl hx)) k (List.mem_append.2 (.inl hk)) rfl
      obtain ⟨row1, p1, p2, p3⟩ := popGeom_ok fld lead idx (f v.name)
        (by
          intro g hg
          refine (g2 _ _).2 (.inr (.inr (.inr ⟨?_, ?_, notK _ (gRaw _ (gname g hg)), ?_⟩)))
          · intro he; exact hvv.1 (he ▸ gRaw _ (gname g hg))
          · intro he; exact hvv.2 (he ▸ gRaw _ (gname g hg))
          · rw [a3 _ (gData _ (gname g hg))]
            exact (hget g.name (sameAt _ (notK _ (gRaw _ (gname g hg)))) _).2 (.inr (.inr (.inl ⟨g, hg, rfl⟩))))
        g1
      let R := cells (fieldRepeated fld o ++ v.repeatRecord.getD [])
      let D : List (String × Cell α) := [("VARIABLE", .text v.name), column lead v idx "VALUE"] ++ o.followers.map (fun w => column lead w idx w.name)
      have Rnames : ∀ n, n ∈ R.map (·.1) ↔ n ∈ (cells (allRepeated fld o)).map (·.1) := by
        intro n
        show n ∈ (cells _).map (·.1) ↔ _
        rw [cells_names, cells_names]
        constructor
        · rintro ⟨p, hp, rfl⟩
          rcases List.mem_append.1 hp with h | h
          · exact ⟨p, (inAll p).2 (.inl h), rfl⟩
          · exact ⟨p, (inAll p).2 (.inr ⟨v, hv, h⟩), rfl⟩
        · rintro ⟨p, hp, rfl⟩
          rcases (inAll p).1 hp with h | ⟨w, hw, h⟩
          · exact ⟨p, List.mem_append.2 (.inl h), rfl⟩
          · obtain ⟨q, hq, he⟩ := hkeys w hw v hv p h
            exact ⟨q, List.mem_append.2 (.inr hq), he⟩
      have hap : Apart fld (o.followers.map Var.name ++ ["VARIABLE", "VALUE"]) (R.map (·.1)) :=
        apart_of fld o _ _ hn (by
          intro n hx
          rcases List.mem_append.1 hx with h | h
          · left; rw [List.map_append]; exact List.mem_append.2 (.inr h)
          · right
            simp only [List.mem_cons, List.not_mem_nil, or_false] at h
            rcases h with rfl | rfl
            · exact hvv.1
            · exact hvv.2) _ (fun n hx => (cells_names _ n).1 ((Rnames n).1 hx))
      have folNe : ∀ k, k ∈ o.followers.map Var.name → k ∈ rawNames fld o ∧ k ≠ "VARIABLE" ∧ k ≠ "VALUE" := by
        intro k hk
        have hr : k ∈ rawNames fld o := by
          rw [rawNames_eq, List.map_append]
          exact List.mem_append.2 (.inl (List.mem_append.2 (.inr hk)))
        exact ⟨hr, fun he => hvv.1 (he ▸ hr), fun he => hvv.2 (he ▸ hr)⟩
      have memD : ∀ k c, (k, c) ∈ D ↔ (k = "VARIABLE" ∧ c = .text v.name) ∨ (k = "VALUE" ∧ c = .data (shownAt lead v idx)) ∨
          (k, c) ∈ o.followers.map (fun w => column lead w idx w.name) := by
        intro k c
        show (k, c) ∈ _ ++ _ ↔ _
        simp only [List.mem_append, List.mem_cons, List.not_mem_nil, or_false, column, Prod.mk.injEq, or_assoc]
      have hDu : ∀ k c c', (k, c) ∈ D → (k, c') ∈ D → c = c' := by
        intro k c c' h h'
        rcases (memD k c).1 h with ⟨e1, e2⟩ | ⟨e1, e2⟩ | e1 <;> rcases (memD k c').1 h' with ⟨e3, e4⟩ | ⟨e3, e4⟩ | e3
        · rw [e2, e4]
        · rw [e1] at e3; exact absurd e3 (by decide)
        · exact absurd e1 (folNe k (columns_names lead idx _ _ e3)).2.1
        · rw [e1] at e3; exact absurd e3 (by decide)
        · rw [e2, e4]
        · exact absurd e1 (folNe k (columns_names lead idx _ _ e3)).2.2
        · exact absurd e3 (folNe k (columns_names lead idx _ _ e1)).2.1
        · exact absurd e3 (folNe k (columns_names lead idx _ _ e1)).2.2
        · exact columns_same lead idx _ nfol k _ _ e1 e3
      have hDn : ∀ p ∈ D, p.1 ∈ o.followers.map Var.name ++ ["VARIABLE", "VALUE"] := by
        rintro ⟨k, c⟩ hp
        rcases (memD k c).1 hp with ⟨e1, -⟩ | ⟨e1, -⟩ | e1
        · simp [e1]
        · simp [e1]
        · exact List.mem_append.2 (.inl (columns_names lead idx _ _ e1))
      have memR : ∀ k c, (k, c) ∈ R ↔ (k, c) ∈ cells (fieldRepeated fld o) ∨ (k, c) ∈ cells (v.repeatRecord.getD []) := by
        intro k c
        show (k, c) ∈ cells _ ↔ _
        unfold cells
        rw [List.map_append, List.mem_append]
      have hRu : ∀ k c c', (k, c) ∈ R → (k, c') ∈ R → c = c' := by
        intro k c c' h h'
        exact cells_same _ k (fun a ha b hb he => hsame v hv a (List.mem_filter.1 ha).1 b (List.mem_filter.1 hb).1 he) c c' h h'
      have Rrep : ∀ k c, (k, c) ∈ R → ∃ p ∈ allRepeated fld o, p.1 = k := by
        intro k c h
        exact (cells_names _ k).1 ((Rnames k).1 (List.mem_map_of_mem (f := (·.1)) h))
      have hrow1 : ∀ k c, Dict.get? row1 k = some c ↔ (k, c) ∈ R ∨ (k, c) ∈ D ∨ ∃ s, (k, s, c) ∈ triples fmt o.tabular fld lead idx := by
        intro k c
        rw [p3]
        split
        · next hg =>
          constructor
          · intro h; cases h
          · rintro (h | h | ⟨s, h⟩)
            · exact absurd (gRaw k hg) (repRaw k (Rrep k c h))
            · rcases (memD k c).1 h with ⟨e1, -⟩ | ⟨e1, -⟩ | e1
              · exact absurd (e1 ▸ gRaw k hg) hvv.1
              · exact absurd (e1 ▸ gRaw k hg) hvv.2
              · refine absurd rfl (n3 k ?_ k (List.mem_append.2 (.inl hg)))
                rw [List.map_append]
                exact List.mem_append.2 (.inr (columns_names lead idx _ _ e1))
            · exact absurd rfl (n5 k hg k (triples_place _ _ _ _ _ _ _ _ h))
        · next hg =>
          rw [g2 k c, memR, memD]
          constructor
          · rintro (h | h | h | ⟨e1, e2, e3, e4⟩)
            · exact .inr (.inl (.inl h))
            · exact .inr (.inl (.inr (.inl h)))
            · exact .inl (.inr h)
            · by_cases hk : k ∈ fld.data.map Var.name
              · rw [a2 k hk] at e4; cases e4
              · rw [a3 k hk, hget k (sameAt k e3)] at e4
                rcases e4 with h | h | ⟨g, hgm, he⟩ | h
                · left
                  obtain ⟨p, hp, he⟩ := List.mem_map.1 h
                  simp only [Prod.mk.injEq] at he
                  obtain ⟨he1, he2⟩ := he
                  rcases (inAll p).1 hp with h' | ⟨w, hw, h'⟩
                  · exact .inl (List.mem_map.2 ⟨p, h', by rw [he1, he2]⟩)
                  · exact absurd ((hK w hw k).1 ⟨p, h', he1⟩) e3
                · obtain ⟨w, hw, he⟩ := List.mem_map.1 h
                  rcases List.mem_append.1 hw with hw | hw
                  · exfalso
                    apply hk
                    simp only [column, Prod.mk.injEq] at he
                    rw [← he.1]
                    exact List.mem_map_of_mem hw
                  · exact .inr (.inl (.inr (.inr (List.mem_map.2 ⟨w, hw, he⟩))))
                · exfalso
                  apply hg
                  simp only [column, Prod.mk.injEq] at he
                  rw [he.1]
                  exact gname g hgm
                · exact .inr (.inr h)
          · rintro ((h | h) | (h | h | h) | ⟨s, h⟩)
            · by_cases hk : K k
              · obtain ⟨p, hp, he⟩ := (hK v hv k).2 hk
                have hc : (k, Cell.data (some p.2)) ∈ cells (v.repeatRecord.getD []) := List.mem_map.2 ⟨p, hp, by rw [he]⟩
                have := hRu k c _ ((memR k c).2 (.inl h)) ((memR k _).2 (.inr hc))
                rw [this]
                exact .inr (.inr (.inl hc))
              · have hR := Rrep k c ((memR k c).2 (.inl h))
                refine .inr (.inr (.inr ⟨(repVar k hR).1, (repVar k hR).2, hk, ?_⟩))
                rw [a3 k (fun hx => repRaw k hR (rawIn k hx)), hget k (sameAt k hk)]
                left
                obtain ⟨p, hp, he⟩ := List.mem_map.1 h
                exact List.mem_map.2 ⟨p, (inAll p).2 (.inl hp), he⟩
            · exact .inr (.inr (.inl h))
            · exact .inl h
            · exact .inr (.inl h)
            · have hx := columns_names lead idx _ _ h
              obtain ⟨f1, f2, f3⟩ := folNe k hx
              refine .inr (.inr (.inr ⟨f2, f3, notK k f1, ?_⟩))
              rw [a3 k (fun hy => dataFol k hy hx), hget k (sameAt k (notK k f1))]
              right; left
              obtain ⟨w, hw, he⟩ := List.mem_map.1 h
              exact List.mem_map.2 ⟨w, List.mem_append.2 (.inr hw), he⟩
            · have hx := triples_place _ _ _ _ _ _ _ _ h
              have hr : k ∈ rawNames fld o := by
                rw [rawNames_eq]
                exact List.mem_append.2 (.inr (List.mem_append.2 (.inr hx)))
              refine .inr (.inr (.inr ⟨fun he => hvv.1 (he ▸ hr), fun he => hvv.2 (he ▸ hr), notK k hr, ?_⟩))
              rw [a3 k ?_, hget k (sameAt k (notK k hr))]
              · exact .inr (.inr (.inr ⟨s, h⟩))
              · intro hy
                exact n3 k (by rw [List.map_append]; exact List.mem_append.2 (.inl hy)) k (List.mem_append.2 (.inr hx)) rfl
      obtain ⟨row2, q1, q2, q3⟩ := rename_field fmt o.tabular true fld lead idx heads (o.followers.map Var.name ++ ["VARIABLE", "VALUE"])
        R D row1 (fun _ => False) hf.realization hap (fun n => (hheads n).trans (Rnames n).symm) hDn hDu
        (fun k c c' _ h h' => hRu k c c' h h') (fun _ _ h => h) p2 (fun k c _ => hrow1 k c)
        (fun _ => ⟨⟨_, (hrow1 "VARIABLE" (.text v.name)).2 (.inr (.inl ((memD _ _).2 (.inl ⟨rfl, rfl⟩))))⟩,
          ⟨_, (hrow1 "VALUE" _).2 (.inr (.inl ((memD _ _).2 (.inr (.inl ⟨rfl, rfl⟩)))))⟩, fun h => h, fun h => h, by simp, by simp⟩)
      refine ⟨row2, ?_, ?_⟩
      · unfold finish
        rw [p1, hst]
        simp only [rename]
        rw [q1]
        simp
      · intro h c
        rw [q3 h c (fun h => h)]
        unfold meltedRecordColumns
        show (h, c) ∈ R ∨ (h, c) ∈ _ ++ _ ∨ _ ↔ _
        simp only [List.mem_append, or_assoc]
        exact Iff.rfl
    have : ∀ v, ∃ row, v ∈ fld.data → finish fld.geom o.strict true (some ((stdPairs fld heads).foldl (fun m p => Dict.set m p.1 p.2) [])) (f v.name)
        = .ok (geometryCell fld lead idx, row) ∧ ∀ h c, Dict.get? row h = some c ↔ (h, c) ∈ meltedRecordColumns fmt fld o lead v idx := by
      intro v
      by_cases hv : v ∈ fld.data
      · obtain ⟨row, h⟩ := one v hv
        exact ⟨row, fun _ => h⟩
      · exact ⟨[], fun h => absurd h hv⟩
    refine ⟨fun v => Classical.choose (this v), ?_, fun v hv => (Classical.choose_spec (this v) hv).2⟩
    rw [List.mapM_map]
    exact Ocgis.Mpi.mapM_ok fld.data _ _ fun v hv => (Classical.choose_spec (this v) hv).1

end Ocgis.FieldIter
