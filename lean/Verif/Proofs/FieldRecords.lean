import Verif.Proofs.FieldIter

/-! # The iterators of a field, and what they contribute to records -/

namespace Ocgis.FieldIter
open Ocgis Ocgis.RecordIter Ocgis.Spec Ocgis.Collection Ocgis.Masks Ocgis.Props

/-- A follower tree attached to the lead. -/
def attachT {α : Type} (lead : It α) : Tree α → Tree α
  | .mk f gs => .mk (attached lead f) gs

theorem mkIterator_eq {α : Type} (lead : It α) (args : List (Arg α)) (melted : Option (List String))
    (h : ∀ f ∈ followersOf lead args, ∀ d ∈ f.var.dims, d ∈ lead.var.dims) :
    mkIterator lead (some args) melted = .ok (.mk lead ((flattenArgs args).map fun a => attachT lead (argTree lead a))) := by
  rw [mkIterator, Ocgis.Mpi.mapM_ok (flattenArgs args) _ (fun a => attachT lead (argTree lead a))]
  intro a ha
  cases ht : argTree lead a with
  | mk f gs =>
    have := h _ (List.mem_map.2 ⟨a, ha, rfl⟩)
    rw [ht] at this
    exact attach_ok lead f gs this

/-- The repeated columns of a coordinate, as they reach its iterator. -/
def coordReps {α : Type} (c : Coord α) : Option (List (String × α)) :=
  match c.did with
  | none => (getIterRepeaters none c.var.repeatRecord).1
  | some d => some [("DID", d)]

/-- The iterator of a coordinate. -/
def coordIt {α : Type} (fv : Option (String → Option α → Bool → List (String × Cell α))) (allow : Bool) (primary : Option String) (c : Coord α) :
    It α :=
  { mkIt { c.var with repeatRecord := none } allow primary none true with repeaters := coordReps c, formatter := fv }

/-- The variables of the bounds. -/
def boundVars {α : Type} (v : Var α) : List (Var α) :=
  match v.bounds with
  | none => []
  | some b => [{ name := "lb_" ++ v.name, dims := v.dims, shape := v.shape, value := fun i => (b (i.headD 0)).1 },
     { name := "ub_" ++ v.name, dims := v.dims, shape := v.shape, value := fun i => (b (i.headD 0)).2 }]

/-- The iterators of the bounds. -/
def boundIt {α : Type} (fb : Option (String → Option α → Bool → List (String × Cell α))) (allow : Bool) (primary : Option String) (n : String)
    (v : Var α) : It α :=
  { mkIt v allow (some (primary.getD n)) none true with formatter := fb }

/-- The tree of a coordinate. -/
def coordTree {α : Type} (fv fb : Option (String → Option α → Bool → List (String × Cell α))) (allow : Bool) (primary : Option String)
    (c : Coord α) : Tree α :=
  .mk (coordIt fv allow primary c) ((boundVars c.var).map fun v => .mk (boundIt fb allow primary c.var.name v) [])

theorem coordIter_ok {α : Type} (add allow : Bool) (primary : Option String) (c : Coord α)
    (h1 : c.var.bounds.isSome → c.var.dims.length ≤ 1) (h2 : add = true ∨ c.var.bounds = none)
    (h3 : c.did = none ∨ c.var.repeatRecord = none) :
    coordIter add allow primary c = .ok (coordTree none none allow primary c) := by
  unfold coordIter
  cases hb : c.var.bounds with
  | none =>
    simp only [getIterFollowers, hb, mkIterator, addDid]
    cases hd : c.did with
    | none => simp [coordTree, coordIt, boundVars, hb, coordReps, hd, mkIt]
    | some d =>
      rcases h3 with h3 | h3
      · rw [hd] at h3; cases h3
      · simp [coordTree, coordIt, boundVars, hb, coordReps, hd, mkIt, h3, getIterRepeaters]
  | some b =>
    have ha : add = true := by
      rcases h2 with h2 | h2
      · exact h2
      · rw [hb] at h2; cases h2
    have hn : ¬ 1 < c.var.dims.length := by
      have := h1 (by rw [hb]; rfl)
      omega
    have hm := mkIterator_eq { mkIt { c.var with repeatRecord := none } allow primary none true with
        repeaters := (getIterRepeaters none c.var.repeatRecord).1 } (boundsFollowers c.var b) none (by
      intro f hf d hd
      simp only [followersOf, flattenArgs, boundsFollowers, List.flatMap_cons, List.flatMap_nil, List.append_nil, List.map_cons, List.map_nil,
        List.cons_append, List.nil_append, argTree, Tree.it, List.mem_cons, List.not_mem_nil, or_false] at hf
      rcases hf with rfl | rfl <;> exact hd)
    have e : getIterFollowers add c.var = .ok (some (boundsFollowers c.var b)) := by simp [getIterFollowers, hb, ha, hn]
    rw [e]
    dsimp only [mkIt] at hm ⊢
    rw [hm]
    simp only [Option.isNone_some, Bool.and_false, Bool.false_eq_true, if_false, flattenArgs, boundsFollowers, List.flatMap_cons,
      List.flatMap_nil, List.append_nil, List.map_cons, List.map_nil, List.cons_append, List.nil_append, argTree, attachT, attached, mkIt]
    unfold addDid
    cases hd : c.did with
    | none => simp [coordTree, coordIt, boundVars, boundIt, hb, coordReps, hd, mkIt]
    | some d =>
      rcases h3 with h3 | h3
      · rw [hd] at h3; cases h3
      · simp [coordTree, coordIt, boundVars, boundIt, hb, coordReps, hd, mkIt, h3, getIterRepeaters]

theorem timeFormat_tree {α : Type} (fmt : Fmt α) (tab allow : Bool) (primary : Option String) (c : Coord α) :
    timeFormat fmt tab (coordTree none none allow primary c)
      = coordTree (if tab then some (timeValue fmt) else none) (if tab then some (timeBounds fmt) else none) allow primary c := by
  cases tab with
  | false => rfl
  | true =>
    simp only [timeFormat, coordTree, if_true, List.map_map]
    rfl

/-- The tree of the geometry. -/
def geomTree {α : Type} (allow : Bool) (primary : String) (g : Var α) (ugid : Option (Var α)) : Tree α :=
  .mk (mkIt g allow (some primary) none true)
    (match ugid with | none => [] | some u => [.mk (mkIt u allow (some primary) none true) []])

theorem geomIter_ok {α : Type} (allow : Bool) (primary : String) (g : Var α) (ugid : Option (Var α))
    (h : ∀ u, ugid = some u → u.dims = g.dims) :
    geomIter true allow (some primary) g ugid = .ok (geomTree allow primary g ugid) := by
  unfold geomIter
  cases hu : ugid with
  | none => simp [mkIterator, flattenArgs, geomTree]; rfl
  | some u =>
    have hd := h u hu
    simp only
    rw [mkIterator_eq]
    · simp [flattenArgs, argTree, attachT, attached, mkIt, hd, geomTree]
    · intro f hf d hdm
      simp only [followersOf, flattenArgs, List.flatMap_cons, List.flatMap_nil, List.append_nil, List.map_cons, List.map_nil,
        argTree, Tree.it, List.mem_cons, List.not_mem_nil, or_false] at hf
      subst hf
      simpa [mkIt, hd] using hdm

/-- The primary mask of the coordinates. -/
def primOf {α : Type} (fld : Fld α) : Option String := fld.geom.map Var.name

/-- The trees of geometry and coordinates. -/
def treesOf {α : Type} (fmt : Fmt α) (fld : Fld α) (o : Opts α) : List (Tree α) :=
  (fld.geom.map fun g => geomTree o.allowMasked g.name g fld.ugid).toList ++
  (fld.realization.map fun c => coordTree none none o.allowMasked (primOf fld) c).toList ++
  (fld.time.map fun c => coordTree (if o.tabular then some (timeValue fmt) else none) (if o.tabular then some (timeBounds fmt) else none)
    o.allowMasked (primOf fld) c).toList ++
  (fld.level.map fun c => coordTree none none o.allowMasked (primOf fld) c).toList

theorem coordArgs_ok {α : Type} (fmt : Fmt α) (fld : Fld α) (o : Opts α) (size : String → Nat) (lead : Var α)
    (hs : o.standardize = true) (hp : o.primaryMask = none) (hf : FieldFits size fld o lead) :
    coordArgs fmt fld o = .ok ((treesOf fmt fld o).map .iter) := by
  have hprim : primaryOf fld o = primOf fld := by
    unfold primaryOf primOf
    rw [hp]
    cases fld.geom <;> rfl
  have e1 : optArg fld.geom (fun g => geomIter o.standardize o.allowMasked (primaryOf fld o) g fld.ugid)
      = .ok ((fld.geom.map fun g => geomTree o.allowMasked g.name g fld.ugid).toList.map .iter) := by
    cases hg : fld.geom with
    | none => rfl
    | some g =>
      have := geomIter_ok o.allowMasked g.name g fld.ugid (fun u hu => (hf.ugid g u hg hu).1)
      have hpr : primaryOf fld o = some g.name := by rw [hprim, primOf, hg]; rfl
      rw [optArg, hs, hpr, this]
      rfl
  have e2 : optArg fld.realization (coordIter false o.allowMasked (primaryOf fld o))
      = .ok ((fld.realization.map fun c => coordTree none none o.allowMasked (primOf fld) c).toList.map .iter) := by
    cases hc : fld.realization with
    | none => rfl
    | some c =>
      have hm : c ∈ coordinates fld := by simp [coordinates, hc]
      rw [optArg, hprim, coordIter_ok _ _ _ c (hf.bounds c hm) (.inr (hf.realization c hc)) (hf.did c hm)]
      rfl
  have e3 : optArg fld.time (fun c => (coordIter true o.allowMasked (primaryOf fld o) c).map (timeFormat fmt o.tabular))
      = .ok ((fld.time.map fun c => coordTree (if o.tabular then some (timeValue fmt) else none)
        (if o.tabular then some (timeBounds fmt) else none) o.allowMasked (primOf fld) c).toList.map .iter) := by
    cases hc : fld.time with
    | none => rfl
    | some c =>
      have hm : c ∈ coordinates fld := by simp [coordinates, hc]
      rw [optArg, hprim, coordIter_ok _ _ _ c (hf.bounds c hm) (.inl rfl) (hf.did c hm)]
      simp only [Except.map, timeFormat_tree]
      rfl
  have e4 : optArg fld.level (coordIter true o.allowMasked (primaryOf fld o))
      = .ok ((fld.level.map fun c => coordTree none none o.allowMasked (primOf fld) c).toList.map .iter) := by
    cases hc : fld.level with
    | none => rfl
    | some c =>
      have hm : c ∈ coordinates fld := by simp [coordinates, hc]
      rw [optArg, hprim, coordIter_ok _ _ _ c (hf.bounds c hm) (.inl rfl) (hf.did c hm)]
      rfl
  unfold coordArgs
  rw [e1, e2, e3, e4]
  simp only [treesOf, List.map_append]

/-- The iterators of a tree of depth two. -/
def treeIts {α : Type} : Tree α → List (It α)
  | .mk f fs => f :: fs.map Tree.it

theorem flatten_coord {α : Type} (fv fb : Option (String → Option α → Bool → List (String × Cell α))) (allow : Bool) (primary : Option String)
    (c : Coord α) :
    flattenTree (coordTree fv fb allow primary c)
      = .iter (coordTree fv fb allow primary c) ::
        (boundVars c.var).map fun v => .iter (.mk (boundIt fb allow primary c.var.name v) []) := by
  simp only [coordTree, flattenTree, boundVars]
  cases c.var.bounds <;> simp [flattenTrees, flattenTree]

theorem flatten_geom {α : Type} (allow : Bool) (primary : String) (g : Var α) (ugid : Option (Var α)) :
    flattenTree (geomTree allow primary g ugid)
      = .iter (geomTree allow primary g ugid) :: ugid.toList.map fun u => .iter (.mk (mkIt u allow (some primary) none true) []) := by
  simp only [geomTree, flattenTree]
  cases ugid <;> simp [flattenTrees, flattenTree]

/-- The iterators of geometry and coordinates, without bounds. -/
inductive IsIt {α : Type} (fmt : Fmt α) (fld : Fld α) (o : Opts α) : It α → Prop
  | geom (g : Var α) : fld.geom = some g → IsIt fmt fld o (mkIt g o.allowMasked (some g.name) none true)
  | ugid (g u : Var α) : fld.geom = some g → fld.ugid = some u → IsIt fmt fld o (mkIt u o.allowMasked (some g.name) none true)
  | realization (c : Coord α) : fld.realization = some c → IsIt fmt fld o (coordIt none o.allowMasked (primOf fld) c)
  | time (c : Coord α) : fld.time = some c → IsIt fmt fld o (coordIt (if o.tabular then some (timeValue fmt) else none) o.allowMasked (primOf fld) c)
  | timeBounds (c : Coord α) (v : Var α) : fld.time = some c → v ∈ boundVars c.var →
      IsIt fmt fld o (boundIt (if o.tabular then some (timeBounds fmt) else none) o.allowMasked (primOf fld) c.var.name v)
  | level (c : Coord α) : fld.level = some c → IsIt fmt fld o (coordIt none o.allowMasked (primOf fld) c)
  | levelBounds (c : Coord α) (v : Var α) : fld.level = some c → v ∈ boundVars c.var →
      IsIt fmt fld o (boundIt none o.allowMasked (primOf fld) c.var.name v)

theorem mem_treesOf {α : Type} (fmt : Fmt α) (fld : Fld α) (o : Opts α) (t : Tree α) :
    t ∈ treesOf fmt fld o ↔ (∃ g, fld.geom = some g ∧ t = geomTree o.allowMasked g.name g fld.ugid) ∨
      (∃ c, fld.realization = some c ∧ t = coordTree none none o.allowMasked (primOf fld) c) ∨
      (∃ c, fld.time = some c ∧ t = coordTree (if o.tabular then some (timeValue fmt) else none)
        (if o.tabular then some (FieldIter.timeBounds fmt) else none) o.allowMasked (primOf fld) c) ∨
      (∃ c, fld.level = some c ∧ t = coordTree none none o.allowMasked (primOf fld) c) := by
  unfold treesOf
  simp only [List.mem_append, Option.mem_toList, Option.map_eq_some_iff]
  constructor
  · rintro (((⟨g, h, rfl⟩ | ⟨g, h, rfl⟩) | ⟨g, h, rfl⟩) | ⟨g, h, rfl⟩)
    · exact .inl ⟨g, h, rfl⟩
    · exact .inr (.inl ⟨g, h, rfl⟩)
    · exact .inr (.inr (.inl ⟨g, h, rfl⟩))
    · exact .inr (.inr (.inr ⟨g, h, rfl⟩))
  · rintro (⟨g, h, rfl⟩ | ⟨g, h, rfl⟩ | ⟨g, h, rfl⟩ | ⟨g, h, rfl⟩)
    · exact .inl (.inl (.inl ⟨g, h, rfl⟩))
    · exact .inl (.inl (.inr ⟨g, h, rfl⟩))
    · exact .inl (.inr ⟨g, h, rfl⟩)
    · exact .inr ⟨g, h, rfl⟩

/-- A list of follower arguments of a field. -/
def argsOf {α : Type} (fmt : Fmt α) (fld : Fld α) (o : Opts α) (vs : List (Var α)) : List (Arg α) :=
  vs.map .var ++ (treesOf fmt fld o).map .iter

theorem mem_flatten {α : Type} (fmt : Fmt α) (fld : Fld α) (o : Opts α) (vs : List (Var α)) (a : Arg α) :
    a ∈ flattenArgs (argsOf fmt fld o vs) ↔ (∃ v ∈ vs, a = .var v) ∨ ∃ t ∈ treesOf fmt fld o, a ∈ flattenTree t := by
  unfold flattenArgs argsOf
  rw [List.flatMap_append, List.mem_append, List.flatMap_map, List.flatMap_map]
  simp only [List.mem_flatMap, List.mem_singleton]

theorem mem_its {α : Type} (fmt : Fmt α) (fld : Fld α) (o : Opts α) (hr : ∀ c, fld.realization = some c → c.var.bounds = none)
    (vs : List (Var α)) (L : It α) (f : It α) :
    f ∈ followersOf L (argsOf fmt fld o vs) ↔ (∃ v ∈ vs, f = mkIt v L.allowMasked (some L.primaryMask) none true) ∨ IsIt fmt fld o f := by
  unfold followersOf
  simp only [List.mem_map, mem_flatten]
  constructor
  · rintro ⟨a, ⟨v, hv, rfl⟩ | ⟨t, ht, ha⟩, rfl⟩
    · exact .inl ⟨v, hv, rfl⟩
    · right
      rcases (mem_treesOf fmt fld o t).1 ht with ⟨g, h, rfl⟩ | ⟨g, h, rfl⟩ | ⟨g, h, rfl⟩ | ⟨g, h, rfl⟩
      · rw [flatten_geom] at ha
        rcases List.mem_cons.1 ha with rfl | ha
        · exact .geom g h
        · obtain ⟨u, hu, rfl⟩ := List.mem_map.1 ha
          exact .ugid g u h (by simpa using hu)
      all_goals
        rw [flatten_coord] at ha
        rcases List.mem_cons.1 ha with rfl | ha
      · exact .realization g h
      · simp [boundVars, hr g h] at ha
      · exact .time g h
      · obtain ⟨v, hv, rfl⟩ := List.mem_map.1 ha
        exact .timeBounds g v h hv
      · exact .level g h
      · obtain ⟨v, hv, rfl⟩ := List.mem_map.1 ha
        exact .levelBounds g v h hv
  · rintro (⟨v, hv, rfl⟩ | h)
    · exact ⟨_, .inl ⟨v, hv, rfl⟩, rfl⟩
    · have tree : ∀ t, t ∈ treesOf fmt fld o → ∀ a, a ∈ flattenTree t → (argTree L a).it = f →
          ∃ a, ((∃ v ∈ vs, a = .var v) ∨ ∃ t ∈ treesOf fmt fld o, a ∈ flattenTree t) ∧ (argTree L a).it = f :=
        fun t ht a ha he => ⟨a, .inr ⟨t, ht, ha⟩, he⟩
      cases h with
      | geom g h =>
        exact tree _ ((mem_treesOf fmt fld o _).2 (.inl ⟨g, h, rfl⟩)) _ (by rw [flatten_geom]; exact List.mem_cons_self ..) rfl
      | ugid g u h hu =>
        exact tree _ ((mem_treesOf fmt fld o _).2 (.inl ⟨g, h, rfl⟩)) (.iter (.mk (mkIt u o.allowMasked (some g.name) none true) []))
          (by rw [flatten_geom, hu]; simp) rfl
      | realization c h =>
        exact tree _ ((mem_treesOf fmt fld o _).2 (.inr (.inl ⟨c, h, rfl⟩))) _ (by rw [flatten_coord]; exact List.mem_cons_self ..) rfl
      | time c h =>
        exact tree _ ((mem_treesOf fmt fld o _).2 (.inr (.inr (.inl ⟨c, h, rfl⟩)))) _ (by rw [flatten_coord]; exact List.mem_cons_self ..) rfl
      | timeBounds c v h hv =>
        exact tree _ ((mem_treesOf fmt fld o _).2 (.inr (.inr (.inl ⟨c, h, rfl⟩)))) (.iter (.mk _ []))
          (by rw [flatten_coord]; exact List.mem_cons_of_mem _ (List.mem_map.2 ⟨v, hv, rfl⟩)) rfl
      | level c h =>
        exact tree _ ((mem_treesOf fmt fld o _).2 (.inr (.inr (.inr ⟨c, h, rfl⟩)))) _ (by rw [flatten_coord]; exact List.mem_cons_self ..) rfl
      | levelBounds c v h hv =>
        exact tree _ ((mem_treesOf fmt fld o _).2 (.inr (.inr (.inr ⟨c, h, rfl⟩)))) (.iter (.mk _ []))
          (by rw [flatten_coord]; exact List.mem_cons_of_mem _ (List.mem_map.2 ⟨v, hv, rfl⟩)) rfl

/-! ## Headers and repeated columns -/

theorem mem_treesHeaders {α : Type} (ts : List (Tree α)) (n : String) : n ∈ treesHeaders ts ↔ ∃ t ∈ ts, n ∈ treeHeaders t := by
  induction ts with
  | nil => simp [treesHeaders]
  | cons t ts ih => simp [treesHeaders, ih]

theorem attached_repeaters {α : Type} (lead f : It α) : (attached lead f).repeaters = f.repeaters := by
  rw [attached]; split <;> rfl

/-- The name of a repeated column of an iterator. -/
def RepName {α : Type} (f : It α) (n : String) : Prop := ∃ p ∈ f.repeaters.getD [], p.1 = n

theorem boundVars_rr {α : Type} (v b : Var α) (h : b ∈ boundVars v) : b.repeatRecord = none ∧ b.dims = v.dims ∧ b.shape = v.shape ∧ b.mask = none := by
  unfold boundVars at h
  cases hb : v.bounds with
  | none => rw [hb] at h; simp at h
  | some x =>
    rw [hb] at h
    simp only [List.mem_cons, List.not_mem_nil, or_false] at h
    rcases h with rfl | rfl <;> exact ⟨rfl, rfl, rfl, rfl⟩

theorem headers_arg {α : Type} (fmt : Fmt α) (fld : Fld α) (o : Opts α) (hr : ∀ c, fld.realization = some c → c.var.bounds = none)
    (vs : List (Var α)) (L : It α) (a : Arg α)
    (ha : a ∈ flattenArgs (argsOf fmt fld o vs)) (n : String) (h : n ∈ treeHeaders (attachT L (argTree L a))) :
    ∃ f ∈ followersOf L (argsOf fmt fld o vs), RepName f n := by
  have self : RepName (argTree L a).it n → ∃ f ∈ followersOf L (argsOf fmt fld o vs), RepName f n :=
    fun hx => ⟨_, List.mem_map.2 ⟨a, ha, rfl⟩, hx⟩
  have coord : ∀ fv fb c, a = .iter (coordTree fv fb o.allowMasked (primOf fld) c) → RepName (argTree L a).it n := by
    intro fv fb c he
    subst he
    simp only [argTree, coordTree, attachT, treeHeaders, List.mem_append, mem_treesHeaders, attached_repeaters, List.mem_map] at h
    rcases h with ⟨p, hp, rfl⟩ | ⟨t, ⟨b, hb, rfl⟩, hn⟩
    · exact ⟨p, hp, rfl⟩
    · simp [treeHeaders, treesHeaders, boundIt, mkIt, joinRepeaters, (boundVars_rr _ _ hb).1] at hn
  have bound : ∀ fb (c : Coord α) v, v ∈ boundVars c.var → a = .iter (.mk (boundIt fb o.allowMasked (primOf fld) c.var.name v) []) → False := by
    intro fb c v hv he
    subst he
    simp [argTree, attachT, treeHeaders, treesHeaders, boundIt, attached_repeaters, mkIt, joinRepeaters, (boundVars_rr c.var _ hv).1] at h
  rcases (mem_flatten fmt fld o vs a).1 ha with ⟨v, hv, rfl⟩ | ⟨t, ht, hat⟩
  · apply self
    simp only [argTree, attachT, treeHeaders, treesHeaders, List.append_nil, attached_repeaters, List.mem_map] at h
    obtain ⟨p, hp, rfl⟩ := h
    exact ⟨p, hp, rfl⟩
  · rcases (mem_treesOf fmt fld o t).1 ht with ⟨g, hg, rfl⟩ | ⟨g, hg, rfl⟩ | ⟨g, hg, rfl⟩ | ⟨g, hg, rfl⟩
    · rw [flatten_geom] at hat
      rcases List.mem_cons.1 hat with rfl | hat
      · simp only [argTree, geomTree, attachT, treeHeaders, List.mem_append, mem_treesHeaders, attached_repeaters, List.mem_map] at h
        rcases h with ⟨p, hp, rfl⟩ | ⟨t, htm, hn⟩
        · exact self ⟨p, hp, rfl⟩
        · cases hu : fld.ugid with
          | none => rw [hu] at htm; simp at htm
          | some u =>
            rw [hu] at htm
            simp only [List.mem_singleton] at htm
            subst htm
            simp only [treeHeaders, treesHeaders, List.append_nil, List.mem_map] at hn
            obtain ⟨p, hp, rfl⟩ := hn
            exact ⟨_, (mem_its fmt fld o hr vs L _).2 (.inr (.ugid g u hg hu)), p, hp, rfl⟩
      · apply self
        obtain ⟨u, hu, rfl⟩ := List.mem_map.1 hat
        simp only [argTree, attachT, treeHeaders, treesHeaders, List.append_nil, attached_repeaters, List.mem_map] at h
        obtain ⟨p, hp, rfl⟩ := h
        exact ⟨p, hp, rfl⟩
    all_goals
      rw [flatten_coord] at hat
      rcases List.mem_cons.1 hat with he | hat
      · exact self (coord _ _ _ he)
      · obtain ⟨v, hv, he⟩ := List.mem_map.1 hat
        exact absurd he.symm (fun he => bound _ g v hv he)

theorem mem_headers {α : Type} (fmt : Fmt α) (fld : Fld α) (o : Opts α) (hr : ∀ c, fld.realization = some c → c.var.bounds = none)
    (vs : List (Var α)) (L : It α) (n : String) :
    n ∈ treeHeaders (.mk L ((flattenArgs (argsOf fmt fld o vs)).map fun a => attachT L (argTree L a))) ↔
      ∃ f ∈ L :: followersOf L (argsOf fmt fld o vs), RepName f n := by
  rw [treeHeaders, List.mem_append, mem_treesHeaders]
  constructor
  · rintro (h | ⟨t, ht, hn⟩)
    · obtain ⟨p, hp, rfl⟩ := List.mem_map.1 h
      exact ⟨L, by simp, p, hp, rfl⟩
    · obtain ⟨a, ha, rfl⟩ := List.mem_map.1 ht
      obtain ⟨f, hf, h⟩ := headers_arg fmt fld o hr vs L a ha n hn
      exact ⟨f, List.mem_cons_of_mem _ hf, h⟩
  · rintro ⟨f, hf, p, hp, rfl⟩
    rcases List.mem_cons.1 hf with rfl | hf
    · exact .inl (List.mem_map.2 ⟨p, hp, rfl⟩)
    · obtain ⟨a, ha, rfl⟩ := List.mem_map.1 hf
      refine .inr ⟨_, List.mem_map.2 ⟨a, ha, rfl⟩, ?_⟩
      cases ht : argTree L a with
      | mk f gs =>
        rw [ht] at hp
        rw [attachT, treeHeaders, attached_repeaters, List.mem_append]
        exact .inl (List.mem_map.2 ⟨p, hp, rfl⟩)

theorem mem_addNames (found names : List String) (n : String) : n ∈ addNames found names ↔ n ∈ found ∨ n ∈ names := by
  unfold addNames
  induction names generalizing found with
  | nil => simp
  | cons m names ih =>
    rw [List.foldl_cons, ih]
    split
    · next h =>
      have : m ∈ found := by simpa using h
      simp only [List.mem_cons]
      constructor
      · rintro (h | h)
        · exact .inl h
        · exact .inr (.inr h)
      · rintro (h | rfl | h)
        · exact .inl h
        · exact .inl this
        · exact .inr h
    · simp only [List.mem_append, List.mem_cons, List.not_mem_nil, or_false]
      constructor
      · rintro ((h | h) | h)
        · exact .inl h
        · exact .inr (.inl h)
        · exact .inr (.inr h)
      · rintro (h | h | h)
        · exact .inl (.inl h)
        · exact .inl (.inr h)
        · exact .inr h

theorem mem_join {α : Type} (given own : Option (List (String × α))) (p : String × α) :
    p ∈ (joinRepeaters given own).getD [] ↔ p ∈ given.getD [] ∨ p ∈ own.getD [] := by
  cases given <;> cases own <;> simp [joinRepeaters]

theorem mem_coordReps {α : Type} (c : Coord α) (h : c.did = none ∨ c.var.repeatRecord = none) (p : String × α) :
    p ∈ (coordReps c).getD [] ↔ p ∈ coordRepeated (some c) := by
  unfold coordReps coordRepeated
  cases hd : c.did with
  | none =>
    cases hc : c.var.repeatRecord <;> simp [getIterRepeaters, hd, hc]
  | some d =>
    rcases h with h | h
    · rw [hd] at h; cases h
    · simp [h, hd]

/-- The repeated columns that are not of data variables nor given. -/
def placeRepeated {α : Type} (fld : Fld α) : List (String × α) :=
  (match fld.geom with
    | some g => g.repeatRecord.getD [] ++ (match fld.ugid with | some u => u.repeatRecord.getD [] | none => [])
    | none => []) ++
  coordRepeated fld.realization ++ coordRepeated fld.time ++ coordRepeated fld.level

theorem reps_isIt {α : Type} (fmt : Fmt α) (fld : Fld α) (o : Opts α) (hd : ∀ c ∈ coordinates fld, c.did = none ∨ c.var.repeatRecord = none)
    (p : String × α) : (∃ f, IsIt fmt fld o f ∧ p ∈ f.repeaters.getD []) ↔ p ∈ placeRepeated fld := by
  unfold placeRepeated
  simp only [List.mem_append]
  have rr : ∀ (v : Var α) al pr, p ∈ (mkIt v al pr none true).repeaters.getD [] ↔ p ∈ v.repeatRecord.getD [] := by
    intro v al pr
    rw [mkIt, mem_join]; simp
  have bb : ∀ (c v : Var α) fb al pr n, v ∈ boundVars c → p ∉ (boundIt fb al pr n v).repeaters.getD [] := by
    intro c v fb al pr n hv
    simp [boundIt, mkIt, joinRepeaters, (boundVars_rr _ _ hv).1]
  constructor
  · rintro ⟨f, hf, hp⟩
    cases hf with
    | geom g h => rw [rr] at hp; simp [h, hp]
    | ugid g u h hu => rw [rr] at hp; simp [h, hu, hp]
    | realization c h =>
      have := (mem_coordReps c (hd c (by simp [coordinates, h])) p).1 hp
      simp [h, this]
    | time c h =>
      have := (mem_coordReps c (hd c (by simp [coordinates, h])) p).1 hp
      simp [h, this]
    | timeBounds c v h hv => exact absurd hp (bb _ _ _ _ _ _ hv)
    | level c h =>
      have := (mem_coordReps c (hd c (by simp [coordinates, h])) p).1 hp
      simp [h, this]
    | levelBounds c v h hv => exact absurd hp (bb _ _ _ _ _ _ hv)
  · rintro (((h | h) | h) | h)
    · cases hg : fld.geom with
      | none => simp [hg] at h
      | some g =>
        rw [hg] at h
        simp only [List.mem_append] at h
        rcases h with h | h
        · exact ⟨_, .geom g hg, (rr _ _ _).2 h⟩
        · cases hu : fld.ugid with
          | none => simp [hu] at h
          | some u =>
            rw [hu] at h
            exact ⟨_, .ugid g u hg hu, (rr _ _ _).2 h⟩
    · cases hc : fld.realization with
      | none => simp [hc, coordRepeated] at h
      | some c => exact ⟨_, .realization c hc, (mem_coordReps c (hd c (by simp [coordinates, hc])) p).2 (by rw [← hc]; exact h)⟩
    · cases hc : fld.time with
      | none => simp [hc, coordRepeated] at h
      | some c => exact ⟨_, .time c hc, (mem_coordReps c (hd c (by simp [coordinates, hc])) p).2 (by rw [← hc]; exact h)⟩
    · cases hc : fld.level with
      | none => simp [hc, coordRepeated] at h
      | some c => exact ⟨_, .level c hc, (mem_coordReps c (hd c (by simp [coordinates, hc])) p).2 (by rw [← hc]; exact h)⟩

/-! ## Columns -/

/-- Raw name, standard name and cell of the bounds. -/
def boundsT {α : Type} (s : α → α) (lead : Var α) (c : Coord α) (idx : List Nat) (lower upper : String) : List (String × String × Cell α) :=
  match c.var.bounds with
  | none => []
  | some b => [("lb_" ++ c.var.name, lower, .data (some (s (b ((indexAt lead c.var idx).headD 0)).1))),
      ("ub_" ++ c.var.name, upper, .data (some (s (b ((indexAt lead c.var idx).headD 0)).2)))]

/-- Those of the parts of the time. -/
def partsT {α : Type} (fmt : Fmt α) (lead : Var α) (c : Coord α) (idx : List Nat) : List (String × String × Cell α) :=
  [("YEAR", "YEAR", .data (((shownAt lead c.var idx).bind fmt.parts).map fun p => p.1)),
   ("MONTH", "MONTH", .data (((shownAt lead c.var idx).bind fmt.parts).map fun p => p.2.1)),
   ("DAY", "DAY", .data (((shownAt lead c.var idx).bind fmt.parts).map fun p => p.2.2))]

/-- Those of the time. -/
def timeT {α : Type} (fmt : Fmt α) (tab : Bool) (lead : Var α) (c : Coord α) (idx : List Nat) : List (String × String × Cell α) :=
  (c.var.name, "TIME", .data ((shownAt lead c.var idx).map (if tab then fmt.str else id))) ::
    boundsT (if tab then fmt.str else id) lead c idx "LB_TIME" "UB_TIME" ++ (if tab then partsT fmt lead c idx else [])

/-- Those of the level. -/
def levelT {α : Type} (lead : Var α) (c : Coord α) (idx : List Nat) : List (String × String × Cell α) :=
  (c.var.name, "LEVEL", .data (shownAt lead c.var idx)) :: boundsT id lead c idx "LB_LEVEL" "UB_LEVEL"

/-- All of them. -/
def triples {α : Type} (fmt : Fmt α) (tab : Bool) (fld : Fld α) (lead : Var α) (idx : List Nat) : List (String × String × Cell α) :=
  (match fld.geom, fld.ugid with | some _, some u => [(u.name, u.name, Cell.data (shownAt lead u idx))] | _, _ => []) ++
  (match fld.realization with | some c => [(c.var.name, "RLZ", Cell.data (shownAt lead c.var idx))] | none => []) ++
  (match fld.time with | some c => timeT fmt tab lead c idx | none => []) ++
  (match fld.level with | some c => levelT lead c idx | none => [])

theorem boundsT_snd {α : Type} (s : α → α) (lead : Var α) (c : Coord α) (idx : List Nat) (lower upper : String) :
    (boundsT s lead c idx lower upper).map Prod.snd = boundsColumns s lead c idx lower upper := by
  unfold boundsT boundsColumns
  cases c.var.bounds <;> rfl

theorem snd_mem {α : Type} (M : List (String × String × Cell α)) (h : String) (c : Cell α) : (∃ k, (k, h, c) ∈ M) ↔ (h, c) ∈ M.map Prod.snd := by
  rw [List.mem_map]
  constructor
  · rintro ⟨k, hk⟩; exact ⟨_, hk, rfl⟩
  · rintro ⟨⟨k, x⟩, hk, rfl⟩; exact ⟨k, hk⟩

theorem mem_triples {α : Type} (fmt : Fmt α) (tab : Bool) (fld : Fld α) (lead : Var α) (idx : List Nat) (t : String × String × Cell α) :
    t ∈ triples fmt tab fld lead idx ↔
      (∃ g u, fld.geom = some g ∧ fld.ugid = some u ∧ t = (u.name, u.name, .data (shownAt lead u idx))) ∨
      (∃ c, fld.realization = some c ∧ t = (c.var.name, "RLZ", .data (shownAt lead c.var idx))) ∨
      (∃ c, fld.time = some c ∧ t ∈ timeT fmt tab lead c idx) ∨ ∃ c, fld.level = some c ∧ t ∈ levelT lead c idx := by
  unfold triples
  simp only [List.mem_append]
  have e1 : (t ∈ match fld.geom, fld.ugid with | some _, some u => [(u.name, u.name, Cell.data (shownAt lead u idx))] | _, _ => []) ↔
      ∃ g u, fld.geom = some g ∧ fld.ugid = some u ∧ t = (u.name, u.name, .data (shownAt lead u idx)) := by
    cases fld.geom <;> cases fld.ugid <;> simp
  have e2 : (t ∈ match fld.realization with | some c => [(c.var.name, "RLZ", Cell.data (shownAt lead c.var idx))] | none => []) ↔
      ∃ c, fld.realization = some c ∧ t = (c.var.name, "RLZ", .data (shownAt lead c.var idx)) := by
    cases fld.realization <;> simp
  have e3 : (t ∈ match fld.time with | some c => timeT fmt tab lead c idx | none => []) ↔ ∃ c, fld.time = some c ∧ t ∈ timeT fmt tab lead c idx := by
    cases fld.time <;> simp
  have e4 : (t ∈ match fld.level with | some c => levelT lead c idx | none => []) ↔ ∃ c, fld.level = some c ∧ t ∈ levelT lead c idx := by
    cases fld.level <;> simp
  rw [e1, e2, e3, e4, or_assoc, or_assoc]

theorem triples_std {α : Type} (fmt : Fmt α) (tab : Bool) (fld : Fld α) (lead : Var α) (idx : List Nat) (h : String) (c : Cell α) :
    (h, c) ∈ standardColumns fmt tab fld lead idx ↔ ∃ k, (k, h, c) ∈ triples fmt tab fld lead idx := by
  rw [snd_mem]
  unfold triples standardColumns
  simp only [List.map_append, List.mem_append]
  have e1 : (match fld.geom, fld.ugid with | some _, some u => [(u.name, u.name, Cell.data (shownAt lead u idx))] | _, _ => []).map Prod.snd
      = (match fld.geom, fld.ugid with | some _, some u => [column lead u idx u.name] | _, _ => []) := by
    cases fld.geom <;> cases fld.ugid <;> rfl
  have e2 : (match fld.realization with | some c => [(c.var.name, "RLZ", Cell.data (shownAt lead c.var idx))] | none => []).map Prod.snd
      = (match fld.realization with | some c => [column lead c.var idx "RLZ"] | none => []) := by
    cases fld.realization <;> rfl
  have e3 : (h, c) ∈ (match fld.time with | some c => timeT fmt tab lead c idx | none => []).map Prod.snd
      ↔ (h, c) ∈ (match fld.time with | some c => timeColumns fmt tab lead c idx | none => []) := by
    cases fld.time with
    | none => simp
    | some t =>
      simp only [timeT, timeColumns]
      cases tab with
      | true =>
        simp only [if_true, List.map_cons, List.map_append, List.mem_cons, List.mem_append, boundsT_snd, partsT, List.map_nil,
          List.not_mem_nil, or_false]
        constructor
        · rintro ((h | h) | h)
          · exact .inl (.inl h)
          · exact .inr h
          · exact .inl (.inr h)
        · rintro ((h | h) | h)
          · exact .inl (.inl h)
          · exact .inr h
          · exact .inl (.inr h)
      | false =>
        simp only [Bool.false_eq_true, if_false, List.append_nil, List.map_cons, boundsT_snd, column, Option.map_id, id_eq]
  have e4 : (match fld.level with | some c => levelT lead c idx | none => []).map Prod.snd
      = (match fld.level with | some c => levelColumns lead c idx | none => []) := by
    cases fld.level with
    | none => rfl
    | some t => simp only [levelT, levelColumns, List.map_cons, boundsT_snd, column]
  rw [e1, e2, e3, e4]
  exact Iff.rfl

theorem shown_at {α : Type} (lead v : Var α) (idx : List Nat) : shown true v (indexAt lead v idx) = shownAt lead v idx := by
  unfold shown shownAt maskedAt
  cases v.mask with
  | none => simp
  | some m => cases m (indexAt lead v idx) <;> simp

theorem masked_shown {α : Type} (lead v : Var α) (idx : List Nat) (h : maskedAt v (indexAt lead v idx) = true) : shownAt lead v idx = none := by
  rw [← shown_at, shown, h]; rfl

/-- A formatter on an unmasked value. -/
def unmaskedF {α : Type} (fb : Option (String → Option α → Bool → List (String × Cell α))) (n : String) (x : α) : List (String × Cell α) :=
  match fb with
  | none => [(n, Cell.data (some x))]
  | some g => g n (some x) false

theorem bounds_at {α : Type} (fb : Option (String → Option α → Bool → List (String × Cell α))) (s : α → α) (al : Bool) (pr : Option String)
    (lead : Var α) (c : Coord α) (idx : List Nat) (lower upper : String) (q : String × Cell α)
    (hfb : ∀ n x, unmaskedF fb n x = [(n, Cell.data (some (s x)))]) :
    (∃ v ∈ boundVars c.var, q ∈ formatted (boundIt fb al pr c.var.name v) (indexAt lead v idx)) ↔
      ∃ t, (q.1, t, q.2) ∈ boundsT s lead c idx lower upper := by
  have fm : ∀ v : Var α, v.mask = none → formatted (boundIt fb al pr c.var.name v) (indexAt lead v idx)
      = [(v.name, Cell.data (some (s (v.value (indexAt lead v idx)))))] := by
    intro v hv
    have := hfb v.name (v.value (indexAt lead v idx))
    unfold formatted
    cases fb with
    | none => simpa [boundIt, mkIt, shown, maskedAt, hv, unmaskedF] using this
    | some g => simpa [boundIt, mkIt, shown, maskedAt, hv, unmaskedF] using this
  unfold boundVars boundsT
  cases c.var.bounds with
  | none => simp
  | some b =>
    simp only [List.mem_cons, List.not_mem_nil, or_false, Prod.mk.injEq]
    constructor
    · rintro ⟨v, rfl | rfl, hq⟩
      · rw [fm _ rfl] at hq
        have hq := List.mem_singleton.1 hq
        subst hq
        exact ⟨lower, .inl ⟨rfl, rfl, rfl⟩⟩
      · rw [fm _ rfl] at hq
        have hq := List.mem_singleton.1 hq
        subst hq
        exact ⟨upper, .inr ⟨rfl, rfl, rfl⟩⟩
    · obtain ⟨q1, q2⟩ := q
      rintro ⟨t, ⟨h1, -, h2⟩ | ⟨h1, -, h2⟩⟩
      · exact ⟨_, .inl rfl, by rw [fm _ rfl]; simp only at h1 h2; subst h1; subst h2; exact List.mem_singleton.2 rfl⟩
      · exact ⟨_, .inr rfl, by rw [fm _ rfl]; simp only at h1 h2; subst h1; subst h2; exact List.mem_singleton.2 rfl⟩

theorem formatted_plain {α : Type} (v : Var α) (al : Bool) (pr : Option String) (lead : Var α) (idx : List Nat) :
    formatted (mkIt v al pr none true) (indexAt lead v idx) = [column lead v idx v.name] := by
  simp only [formatted, mkIt, column, shown_at]

theorem formatted_coord {α : Type} (c : Coord α) (al : Bool) (pr : Option String) (lead : Var α) (idx : List Nat) :
    formatted (coordIt none al pr c) (indexAt lead c.var idx) = [column lead c.var idx c.var.name] := by
  rw [column, ← shown_at]; rfl

theorem formatted_time {α : Type} (fmt : Fmt α) (tab : Bool) (c : Coord α) (al : Bool) (pr : Option String) (lead : Var α) (idx : List Nat) :
    formatted (coordIt (if tab then some (timeValue fmt) else none) al pr c) (indexAt lead c.var idx)
      = (c.var.name, .data ((shownAt lead c.var idx).map (if tab then fmt.str else id))) ::
        (if tab then (partsT fmt lead c idx).map Prod.snd else []) := by
  cases tab with
  | false => simpa [column] using formatted_coord c al pr lead idx
  | true =>
    have : formatted (coordIt (some (timeValue fmt)) al pr c) (indexAt lead c.var idx)
        = timeValue fmt c.var.name (shownAt lead c.var idx) (maskedAt c.var (indexAt lead c.var idx)) := by
      rw [← shown_at]; rfl
    simp only [if_true, this, timeValue, partsT, List.map_cons, List.map_nil]
    cases hm : maskedAt c.var (indexAt lead c.var idx) with
    | false => rfl
    | true => rw [masked_shown lead c.var idx hm]; rfl

theorem timeT_raw {α : Type} (fmt : Fmt α) (tab : Bool) (lead : Var α) (c : Coord α) (idx : List Nat) (q : String × Cell α) :
    (∃ t, (q.1, t, q.2) ∈ timeT fmt tab lead c idx) ↔
      q ∈ (c.var.name, Cell.data ((shownAt lead c.var idx).map (if tab then fmt.str else id))) ::
        (if tab then (partsT fmt lead c idx).map Prod.snd else []) ∨
      ∃ t, (q.1, t, q.2) ∈ boundsT (if tab then fmt.str else id) lead c idx "LB_TIME" "UB_TIME" := by
  have hp : (∃ t, (q.1, t, q.2) ∈ partsT fmt lead c idx) ↔ q ∈ (partsT fmt lead c idx).map Prod.snd := by
    obtain ⟨q1, q2⟩ := q
    simp only [partsT, List.map_cons, List.map_nil, List.mem_cons, List.not_mem_nil, or_false, Prod.mk.injEq]
    constructor
    · rintro ⟨t, ⟨h1, h2, h3⟩ | ⟨h1, h2, h3⟩ | ⟨h1, h2, h3⟩⟩
      · exact .inl ⟨h1, h3⟩
      · exact .inr (.inl ⟨h1, h3⟩)
      · exact .inr (.inr ⟨h1, h3⟩)
    · rintro (⟨h1, h3⟩ | ⟨h1, h3⟩ | ⟨h1, h3⟩)
      · exact ⟨_, .inl ⟨h1, rfl, h3⟩⟩
      · exact ⟨_, .inr (.inl ⟨h1, rfl, h3⟩)⟩
      · exact ⟨_, .inr (.inr ⟨h1, rfl, h3⟩)⟩
  have h0 : q = (c.var.name, Cell.data ((shownAt lead c.var idx).map (if tab then fmt.str else id))) ↔
      ∃ t, (q.1, t, q.2) = (c.var.name, "TIME", Cell.data ((shownAt lead c.var idx).map (if tab then fmt.str else id))) := by
    obtain ⟨q1, q2⟩ := q
    simp
  have hq : q ∈ (if tab then (partsT fmt lead c idx).map Prod.snd else []) ↔ ∃ t, (q.1, t, q.2) ∈ (if tab then partsT fmt lead c idx else []) := by
    cases tab with
    | true => simpa using hp.symm
    | false => simp
  rw [List.mem_cons, h0, hq]
  unfold timeT
  simp only [List.mem_append, List.mem_cons]
  constructor
  · rintro ⟨t, (h | h) | h⟩
    · exact .inl (.inl ⟨t, h⟩)
    · exact .inr ⟨t, h⟩
    · exact .inl (.inr ⟨t, h⟩)
  · rintro ((⟨t, h⟩ | ⟨t, h⟩) | ⟨t, h⟩)
    · exact ⟨t, .inl (.inl h)⟩
    · exact ⟨t, .inr h⟩
    · exact ⟨t, .inl (.inr h)⟩

theorem indexAt_bound {α : Type} (lead v b : Var α) (idx : List Nat) (h : b ∈ boundVars v) : indexAt lead b idx = indexAt lead v idx := by
  rw [indexAt, indexAt, (boundVars_rr v b h).2.1]

/-- The iterators of geometry and coordinates give the column of the geometry and the columns of the coordinates. -/
theorem formatted_isIt {α : Type} (fmt : Fmt α) (fld : Fld α) (o : Opts α) (lead : Var α) (idx : List Nat) (q : String × Cell α) :
    (∃ f, IsIt fmt fld o f ∧ q ∈ formatted f (indexAt lead f.var idx)) ↔
      (∃ g, fld.geom = some g ∧ q = column lead g idx g.name) ∨ ∃ t, (q.1, t, q.2) ∈ triples fmt o.tabular fld lead idx := by
  have htb : ∀ n x, unmaskedF (if o.tabular then some (FieldIter.timeBounds fmt) else none) n x = [(n, Cell.data (some ((if o.tabular then fmt.str else id) x)))] := by
    intro n x
    cases o.tabular <;> rfl
  simp only [mem_triples]
  constructor
  · rintro ⟨f, hf, hq⟩
    cases hf with
    | geom g h =>
      have hq := (formatted_plain g o.allowMasked (some g.name) lead idx) ▸ hq
      exact .inl ⟨g, h, List.mem_singleton.1 hq⟩
    | ugid g u h hu =>
      have hq := (formatted_plain u o.allowMasked (some g.name) lead idx) ▸ hq
      have hq := List.mem_singleton.1 hq
      subst hq
      exact .inr ⟨u.name, .inl ⟨g, u, h, hu, rfl⟩⟩
    | realization c h =>
      have hq := (formatted_coord c o.allowMasked (primOf fld) lead idx) ▸ hq
      have hq := List.mem_singleton.1 hq
      subst hq
      exact .inr ⟨"RLZ", .inr (.inl ⟨c, h, rfl⟩)⟩
    | time c h =>
      have hq := (formatted_time fmt o.tabular c o.allowMasked (primOf fld) lead idx) ▸ hq
      obtain ⟨t, ht⟩ := (timeT_raw fmt o.tabular lead c idx q).2 (.inl hq)
      exact .inr ⟨t, .inr (.inr (.inl ⟨c, h, ht⟩))⟩
    | timeBounds c v h hv =>
      obtain ⟨t, ht⟩ := (bounds_at _ _ _ _ lead c idx "LB_TIME" "UB_TIME" q htb).1 ⟨v, hv, hq⟩
      obtain ⟨t, ht⟩ := (timeT_raw fmt o.tabular lead c idx q).2 (.inr ⟨t, ht⟩)
      exact .inr ⟨t, .inr (.inr (.inl ⟨c, h, ht⟩))⟩
    | level c h =>
      have hq := (formatted_coord c o.allowMasked (primOf fld) lead idx) ▸ hq
      have hq := List.mem_singleton.1 hq
      subst hq
      exact .inr ⟨"LEVEL", .inr (.inr (.inr ⟨c, h, List.mem_cons_self ..⟩))⟩
    | levelBounds c v h hv =>
      obtain ⟨t, ht⟩ := (bounds_at none id _ _ lead c idx "LB_LEVEL" "UB_LEVEL" q (fun _ _ => rfl)).1 ⟨v, hv, hq⟩
      exact .inr ⟨t, .inr (.inr (.inr ⟨c, h, List.mem_cons_of_mem _ ht⟩))⟩
  · rintro (⟨g, h, rfl⟩ | ⟨t, ⟨g, u, h, hu, he⟩ | ⟨c, h, he⟩ | ⟨c, h, he⟩ | ⟨c, h, he⟩⟩)
    · exact ⟨_, .geom g h, by
        have := formatted_plain g o.allowMasked (some g.name) lead idx
        exact this ▸ List.mem_singleton.2 rfl⟩
    · refine ⟨_, .ugid g u h hu, ?_⟩
      obtain ⟨q1, q2⟩ := q
      simp only [Prod.mk.injEq] at he
      obtain ⟨rfl, -, rfl⟩ := he
      have := formatted_plain u o.allowMasked (some g.name) lead idx
      exact this ▸ List.mem_singleton.2 rfl
    · refine ⟨_, .realization c h, ?_⟩
      obtain ⟨q1, q2⟩ := q
      simp only [Prod.mk.injEq] at he
      obtain ⟨rfl, -, rfl⟩ := he
      have := formatted_coord c o.allowMasked (primOf fld) lead idx
      exact this ▸ List.mem_singleton.2 rfl
    · rcases (timeT_raw fmt o.tabular lead c idx q).1 ⟨t, he⟩ with hq | ht
      · refine ⟨_, .time c h, ?_⟩
        have := formatted_time fmt o.tabular c o.allowMasked (primOf fld) lead idx
        exact this ▸ hq
      · obtain ⟨v, hv, hq⟩ := (bounds_at _ _ o.allowMasked (primOf fld) lead c idx "LB_TIME" "UB_TIME" q htb).2 ht
        exact ⟨_, .timeBounds c v h hv, hq⟩
    · rcases List.mem_cons.1 he with he | he
      · refine ⟨_, .level c h, ?_⟩
        obtain ⟨q1, q2⟩ := q
        simp only [Prod.mk.injEq] at he
        obtain ⟨rfl, -, rfl⟩ := he
        have := formatted_coord c o.allowMasked (primOf fld) lead idx
        exact this ▸ List.mem_singleton.2 rfl
      · obtain ⟨v, hv, hq⟩ := (bounds_at none id o.allowMasked (primOf fld) lead c idx "LB_LEVEL" "UB_LEVEL" q (fun _ _ => rfl)).2 ⟨t, he⟩
        exact ⟨_, .levelBounds c v h hv, hq⟩

/-- All repeated columns. -/
def allReps {α : Type} (fld : Fld α) (o : Opts α) (lead : Var α) (vs : List (Var α)) : List (String × α) :=
  o.repeaters.getD [] ++ (lead :: vs).flatMap (fun v => v.repeatRecord.getD []) ++ placeRepeated fld

/-- The lead iterator of a field. -/
abbrev leadIt {α : Type} (o : Opts α) (lead : Var α) : It α := mkIt lead o.allowMasked none o.repeaters true

theorem mem_recordPairs {α : Type} (fmt : Fmt α) (fld : Fld α) (o : Opts α) (lead : Var α) (vs : List (Var α)) (idx : List Nat)
    (hr : ∀ c, fld.realization = some c → c.var.bounds = none)
    (hd : ∀ c ∈ coordinates fld, c.did = none ∨ c.var.repeatRecord = none) (q : String × Cell α) :
    q ∈ recordPairs (leadIt o lead) (leadIt o lead :: followersOf (leadIt o lead) (argsOf fmt fld o vs)) idx ↔
      (∃ r ∈ allReps fld o lead vs, q = (r.1, .data (some r.2))) ∨ (∃ v ∈ lead :: vs, q = column lead v idx v.name) ∨
      (∃ g, fld.geom = some g ∧ q = column lead g idx g.name) ∨ ∃ t, (q.1, t, q.2) ∈ triples fmt o.tabular fld lead idx := by
  have hL : formatted (leadIt o lead) (indexAt lead lead idx) = [column lead lead idx lead.name] := by
    simp only [formatted, mkIt, column, shown_at]
  have hv : ∀ v : Var α, formatted (mkIt v (leadIt o lead).allowMasked (some (leadIt o lead).primaryMask) none true) (indexAt lead v idx)
      = [column lead v idx v.name] := fun v => formatted_plain v _ _ lead idx
  have split : q ∈ recordPairs (leadIt o lead) (leadIt o lead :: followersOf (leadIt o lead) (argsOf fmt fld o vs)) idx ↔
      ∃ f ∈ leadIt o lead :: followersOf (leadIt o lead) (argsOf fmt fld o vs),
        (∃ r ∈ f.repeaters.getD [], q = (r.1, .data (some r.2))) ∨ q ∈ formatted f (indexAt lead f.var idx) := by
    unfold recordPairs
    rw [← List.flatMap_def, List.mem_flatMap]
    constructor
    · rintro ⟨f, hf, hq⟩
      refine ⟨f, hf, ?_⟩
      rcases List.mem_append.1 hq with h | h
      · obtain ⟨r, hr, rfl⟩ := List.mem_map.1 h
        exact .inl ⟨r, hr, rfl⟩
      · exact .inr h
    · rintro ⟨f, hf, ⟨r, hr, rfl⟩ | h⟩
      · exact ⟨f, hf, List.mem_append.2 (.inl (List.mem_map.2 ⟨r, hr, rfl⟩))⟩
      · exact ⟨f, hf, List.mem_append.2 (.inr h)⟩
  rw [split]
  constructor
  · rintro ⟨f, hf, h⟩
    rcases List.mem_cons.1 hf with rfl | hf
    · rcases h with ⟨r, hrm, rfl⟩ | h
      · left
        refine ⟨r, ?_, rfl⟩
        rcases (mem_join o.repeaters lead.repeatRecord _).1 hrm with h | h
        · simp [allReps, h]
        · simp [allReps, h]
      · right; left
        have h := hL ▸ h
        exact ⟨lead, by simp, List.mem_singleton.1 h⟩
    · rcases (mem_its fmt fld o hr vs _ f).1 hf with ⟨v, hvm, rfl⟩ | hf
      · rcases h with ⟨r, hrm, rfl⟩ | h
        · left
          refine ⟨r, ?_, rfl⟩
          rw [mkIt] at hrm
          rcases (mem_join _ _ _).1 hrm with h | h
          · simp at h
          · unfold allReps
            exact List.mem_append.2 (.inl (List.mem_append.2 (.inr (List.mem_flatMap.2 ⟨v, by simp [hvm], h⟩))))
        · right; left
          have h := hv v ▸ h
          exact ⟨v, by simp [hvm], List.mem_singleton.1 h⟩
      · rcases h with ⟨r, hrm, rfl⟩ | h
        · left
          refine ⟨r, ?_, rfl⟩
          have := (reps_isIt fmt fld o hd r).1 ⟨f, hf, hrm⟩
          exact List.mem_append.2 (.inr this)
        · right; right
          exact (formatted_isIt fmt fld o lead idx q).1 ⟨f, hf, h⟩
  · rintro (⟨r, hrm, rfl⟩ | ⟨v, hvm, rfl⟩ | h)
    · unfold allReps at hrm
      rcases List.mem_append.1 hrm with h | h
      · rcases List.mem_append.1 h with h | h
        · exact ⟨_, List.mem_cons_self .., .inl ⟨r, (mem_join o.repeaters _ _).2 (.inl h), rfl⟩⟩
        · obtain ⟨v, hvm, h2⟩ := List.mem_flatMap.1 h
          rcases List.mem_cons.1 hvm with rfl | hvm
          · exact ⟨_, List.mem_cons_self .., .inl ⟨r, (mem_join o.repeaters _ _).2 (.inr h2), rfl⟩⟩
          · exact ⟨_, List.mem_cons_of_mem _ ((mem_its fmt fld o hr vs _ _).2 (.inl ⟨v, hvm, rfl⟩)),
              .inl ⟨r, by rw [mkIt]; exact (mem_join _ _ _).2 (.inr h2), rfl⟩⟩
      · obtain ⟨f, hf, h⟩ := (reps_isIt fmt fld o hd r).2 h
        exact ⟨f, List.mem_cons_of_mem _ ((mem_its fmt fld o hr vs _ _).2 (.inr hf)), .inl ⟨r, h, rfl⟩⟩
    · rcases List.mem_cons.1 hvm with rfl | hvm
      · exact ⟨_, List.mem_cons_self .., .inr (hL ▸ List.mem_singleton.2 rfl)⟩
      · exact ⟨_, List.mem_cons_of_mem _ ((mem_its fmt fld o hr vs _ _).2 (.inl ⟨v, hvm, rfl⟩)), .inr (hv v ▸ List.mem_singleton.2 rfl)⟩
    · obtain ⟨f, hf, h⟩ := (formatted_isIt fmt fld o lead idx q).2 h
      exact ⟨f, List.mem_cons_of_mem _ ((mem_its fmt fld o hr vs _ _).2 (.inr hf)), .inr h⟩

end Ocgis.FieldIter
