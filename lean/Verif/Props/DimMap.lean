import Verif.Proofs.DimMap

namespace Ocgis.Props
open Ocgis Ocgis.DimMap

/-! ### What the getters report -/

/-- **C53 (last set)**: after a successful `set_variable` on a key, and any further calls that do not set that
key (reads of any key, sets of other keys, failing calls), the getters report the variable's name, the given
bounds or else those of the variable, the recorded dimensions, and for every attribute the value the map had
for it before, else the variable's own, else the given or default one. -/
theorem C53_last_set (known : String → Bool) (s s' : Store) (k : String) (v : VarArg) (a : SetArgs)
    (h : setVariable s k (some v) a = (.ok (), s')) (before : Reading) (hb : Reports s k before)
    (post : List Op) (hpost : ∀ op ∈ post, ¬ Sets k op) :
    ∃ r, Reports (run known s' post) k r
      ∧ r.var = some v.name
      ∧ r.bounds = a.bounds.or (v.obj.bind VarObj.bounds)
      ∧ RecordsDimension v a r.dimension
      ∧ ∀ x, r.attrs x = (before.attrs x).or
          (((v.obj.map VarObj.attrs).getD noAttrs x).or ((a.attrs.getD (defaultAttrs k)) x)) := by
  obtain ⟨hk, dim, hd, rfl⟩ := setVariable_ok s s' k v a h
  have hsame := run_same known post (storeEntry s k v a dim) k hpost
  refine ⟨_, reports_entry _ k hk, ?_⟩
  rw [hsame.1]
  have he : (storeEntry s k v a dim).entry k
      = { var := some (some v.name), bounds := some (chosenBounds v a.bounds), dimension := some (dim.getD []),
          attrs := some (chosenAttrs s k v a.attrs), section_ := a.section_.or (s.entry k).section_ } :=
    put_entry_same _ _ _
  rw [he]
  refine ⟨rfl, ?_, chosenDimension_records v a dim hd, ?_⟩
  · simp only [readingOf, Option.getD_some, chosenBounds]
    cases a.bounds <;> cases v.obj <;> rfl
  · intro x
    have hbe := reports_unique _ _ _ _ hb (reports_entry s k hk)
    subst hbe
    simp only [readingOf, Option.getD_some, chosenAttrs, updateAttrs]

example : (setVariable {} "time" (some { name := "t", obj := some { bounds := some "tb", dims := ["time"], attrs := noAttrs } }) {}).1
    = .ok () := by decide
example : ∀ op ∈ [Op.getVariable "time", .setVariable "x" (some { name := "lon" }) {}, .setCrs "wgs"], ¬ Sets "time" op := by
  simp [Sets]

/-- **C53 (unset)**: setting `None` removes the entry; afterwards, until it is set again, nothing is reported. -/
theorem C53_unset (known : String → Bool) (s : Store) (k : String) (hk : k ∈ coordKeys)
    (post : List Op) (hpost : ∀ op ∈ post, ¬ Sets k op) :
    (setVariable s k none {}).1 = .ok ()
    ∧ Reports (run known (setVariable s k none {}).2 post) k ⟨none, none, [], noAttrs⟩ := by
  have hsp : k ∉ specialKeys := by
    simp only [coordKeys, List.mem_cons, List.not_mem_nil, or_false] at hk
    rcases hk with rfl | rfl | rfl | rfl | rfl | rfl | rfl | rfl <;> decide
  have h : setVariable s k none {} = (.ok (), s.drop k) := by
    rw [setVariable, if_neg hsp, if_neg (by simp), if_neg (by simpa using hk)]
  rw [h]
  refine ⟨rfl, ?_⟩
  have hsame := run_same known post (s.drop k) k hpost
  have := reports_entry (run known (s.drop k) post) k hk
  rw [hsame.1, drop_entry_same] at this
  exact this

example : Reports (setVariable (setVariable {} "x" (some { name := "lon" }) {}).2 "x" none {}).2 "x" ⟨none, none, [], noAttrs⟩ :=
  reports_entry _ _ (by decide)

/-- **C53 (bounds)**: bounds can be set exactly on keys with a variable; the getters then report them, with
everything else about the key as before, until the key is set again. -/
theorem C53_set_bounds (known : String → Bool) (s : Store) (k b : String) (hk : k ∈ coordKeys)
    (before : Reading) (hb : Reports s k before) (post : List Op) (hpost : ∀ op ∈ post, ¬ Sets k op) :
    ((setBounds s k b).1 = .ok () ↔ before.var ≠ none)
    ∧ ((setBounds s k b).1 = .ok () →
        Reports (run known (setBounds s k b).2 post) k { before with bounds := some b }) := by
  have hbe := reports_unique _ _ _ _ hb (reports_entry s k hk)
  subst hbe
  have hn : ¬ (k ∉ coordKeys ∧ k ∉ specialKeys) := fun h => h.1 hk
  have hsb : setBounds s k b = match (s.entry k).var with
    | none => (.error .keyError, s.put k (s.entry k))
    | some none => (.error .dimensionMapError, s.put k (s.entry k))
    | some (some _) => (.ok (), s.put k { s.entry k with bounds := some (some b) }) := by
    rw [setBounds, if_neg hn]
    split <;> (next h => simp only [h])
  rw [hsb]
  cases hv : (s.entry k).var with
  | none => simp [readingOf, hv]
  | some o => cases o with
    | none => simp [readingOf, hv]
    | some n =>
      refine ⟨by simp [readingOf, hv], fun _ => ?_⟩
      have hsame := run_same known post (s.put k { s.entry k with bounds := some (some b) }) k hpost
      have := reports_entry (run known (s.put k { s.entry k with bounds := some (some b) }) post) k hk
      rw [hsame.1, put_entry_same] at this
      simpa [readingOf, hv] using this

example : (setBounds (setVariable {} "x" (some { name := "lon" }) {}).2 "x" "lon_bnds").1 = .ok () := by decide

/-- **C53 (failed set)**: a `set_variable` or `set_bounds` that raises leaves what the getters report about
every key as it was. -/
theorem C53_failed_set (s : Store) (k j : String) (hj : j ∈ coordKeys) (r : Reading) (hr : Reports s j r) :
    (∀ v a e s', setVariable s k v a = (.error e, s') → Reports s' j r)
    ∧ (∀ b e s', setBounds s k b = (.error e, s') → Reports s' j r) := by
  have hbe := reports_unique _ _ _ _ hr (reports_entry s j hj)
  subst hbe
  have key : ∀ s', SameEntry (s'.entry j) (s.entry j) → Reports s' j (readingOf (s.entry j)) := by
    intro s' h
    have := reports_entry s' j hj
    rwa [h.1] at this
  constructor
  · intro v a e s' h
    apply key
    rw [setVariable.eq_def] at h
    split at h
    · rw [← (Prod.mk.inj h).2]; exact SameEntry.rfl' _
    · split at h
      · rw [← (Prod.mk.inj h).2]; exact SameEntry.rfl' _
      · split at h
        · rw [← (Prod.mk.inj h).2]; exact SameEntry.rfl' _
        · split at h
          · simp at h
          · split at h
            · rw [← (Prod.mk.inj h).2]; exact put_same _ _ _ _ (SameEntry.rfl' _)
            · simp at h
  · intro b e s' h
    apply key
    rw [setBounds] at h
    split at h
    · rw [← (Prod.mk.inj h).2]; exact SameEntry.rfl' _
    · split at h
      · rw [← (Prod.mk.inj h).2]; exact put_same _ _ _ _ (SameEntry.rfl' _)
      · rw [← (Prod.mk.inj h).2]; exact put_same _ _ _ _ (SameEntry.rfl' _)
      · simp at h

example : (setVariable {} "x" (some { name := "lon", obj := some { bounds := none, dims := ["y", "x"], attrs := noAttrs } }) {}).1
    = .error .dimensionMapError := by decide

/-- **C53 (invalid keys)**: every getter and setter rejects a key that is not an entry key, and `set_variable`
also rejects the keys with a setter of their own. -/
theorem C53_invalid_key (s : Store) (k : String) (h : k ∉ coordKeys) :
    (∀ v a, setVariable s k v a = (.error .dimensionMapError, s))
    ∧ (k ∉ specialKeys →
        (getVariable s k).1 = .error .dimensionMapError ∧ (getBounds s k).1 = .error .dimensionMapError
        ∧ (getDimension s k).1 = .error .dimensionMapError ∧ (getAttrs s k).1 = .error .dimensionMapError
        ∧ ∀ b, setBounds s k b = (.error .dimensionMapError, s)) := by
  constructor
  · intro v a
    rw [setVariable.eq_def]
    split
    · rfl
    · split
      · rfl
      · rfl
  · intro hs
    have hc : checkKey k = .error .dimensionMapError := by
      rw [checkKey]; split
      · rfl
      · rw [if_neg (by simp [h, hs])]
    simp [getVariable, getBounds, getDimension, getAttrs, hc, setBounds, h, hs]

example : "xx" ∉ coordKeys ∧ "xx" ∉ specialKeys := by decide

/-- **C53 (coordinate system, mask and driver)**: each reads as what was last set, whatever else is called in
between. -/
theorem C53_scalars (known : String → Bool) (s : Store) (post : List Op) :
    (∀ v, (∀ op ∈ post, ¬ Sets "crs" op) → (getCrs (run known (setCrs s (some v)) post)).1 = some v)
    ∧ (∀ v va a, (∀ op ∈ post, ¬ Sets "spatial_mask" op) →
        (getMask (run known (setMask s (some v) va a) post)).1 = some v)
    ∧ (∀ d, known d = true → (∀ op ∈ post, ∀ d', op ≠ .setDriver d') →
        (setDriver known s d).1 = .ok () ∧ getDriver (run known (setDriver known s d).2 post) = d) := by
  refine ⟨fun v h => ?_, fun v va a h => ?_, fun d hd h => ?_⟩
  · have := (run_same known post (setCrs s (some v)) "crs" h).1
    rw [setCrs, put_entry_same] at this
    exact congrArg Reading.var this
  · have := (run_same known post (setMask s (some v) va a) "spatial_mask" h).1
    rw [setMask, put_entry_same] at this
    exact congrArg Reading.var this
  · rw [setDriver, if_pos hd]
    refine ⟨rfl, ?_⟩
    have key : ∀ (post : List Op) (s : Store), s.driver = some d → (∀ op ∈ post, ∀ d', op ≠ .setDriver d') →
        (run known s post).driver = some d := by
      intro post
      induction post with
      | nil => intro s hs _; exact hs
      | cons op ops ih =>
        intro s hs h
        rw [run, List.foldl_cons]
        apply ih _ _ (fun o ho => h o (by simp [ho]))
        have hp : ∀ k e, (s.put k e).driver = some d := fun k e => hs
        cases op with
        | getVariable k => simp only [step, getVariable]; split; exact hs; exact hp _ _
        | getBounds k => simp only [step, getBounds]; split; exact hs; exact hp _ _
        | getDimension k => simp only [step, getDimension]; split; exact hs; exact hp _ _
        | getAttrs k => simp only [step, getAttrs]; split; exact hs; exact hp _ _
        | getCrs => exact hp _ _
        | getMask => exact hp _ _
        | setVariable k v a =>
          simp only [step, setVariable]
          split
          · exact hs
          · split
            · exact hs
            · split
              · exact hs
              · split
                · exact hs
                · split <;> exact hp _ _
        | setBounds k b =>
          simp only [step, setBounds]
          split
          · exact hs
          · split <;> exact hp _ _
        | setCrs v => exact hp _ _
        | setDriver d' => exact absurd rfl (h _ (by simp) d')
        | setMask v va a => exact hp _ _
        | setAbstraction a => exact hs
        | setIsomorphic b => exact hs
    rw [getDriver, key post _ rfl h]; rfl

example : ∀ op ∈ [Op.getCrs, .setVariable "x" (some { name := "lon" }) {}], ¬ Sets "crs" op := by simp [Sets]

/-- **C53 (counterexample, attributes)**: attributes are not what was set last: a second `set_variable` with
another value for an attribute keeps the first value. -/
theorem C53_attrs_counterexample :
    ∃ s, (setVariable {} "x" (some { name := "lon" }) { attrs := some fun a => if a = "axis" then some "X" else none }) = (.ok (), s)
      ∧ ∃ r, Reports (setVariable s "x" (some { name := "lon2" })
          { attrs := some fun a => if a = "axis" then some "Z" else none }).2 "x" r
        ∧ r.var = some "lon2" ∧ r.attrs "axis" = some "X" := by
  refine ⟨_, Prod.ext rfl rfl, _, reports_entry _ _ (by decide), by decide, by decide⟩

/-- **C53 (counterexample, section)**: the section of a variable stays when the key is set to another variable
without a section. -/
theorem C53_section_counterexample :
    ((setVariable (setVariable {} "x" (some { name := "nodeCoords" })
        { dimension := some ["node"], section_ := some "(None, 0)" }).2 "x" (some { name := "lon" }) {}).2.entry "x").section_
      = some "(None, 0)" := by decide

/-- **C53 (counterexample, bounds before a variable)**: setting bounds on a key that was never touched raises a
bare `KeyError`; after merely reading the key the same call raises a `DimensionMapError`. -/
theorem C53_bounds_error_counterexample :
    (setBounds {} "x" "b").1 = .error .keyError
    ∧ (setBounds (getVariable {} "x").2 "x" "b").1 = .error .dimensionMapError := by
  constructor <;> decide

/-! ### Dictionaries -/


/-- **C53 (dictionaries, partial)**: exporting a map to a dictionary and importing it gives a map with the same
groups whose getters report the same for every entry, coordinate system, mask and driver, at every depth of
nesting.  Missing, because false: maps with topologies, a grid abstraction or an isomorphism flag, entries
whose bounds, dimension or attributes were read before anything was set, and the attributes of the spatial
mask (`C53_dict_counterexample`). -/
theorem C53_dict_roundtrip_partial (known : String → Bool) (m : DMap) (h : AllImportable known m) :
    ∃ m', fromDict known m = .ok m' ∧ SameMap m' m :=
  fromDict_ok known m h

/-- **C53 (reachable)**: every map built from nothing by successful calls of the setters for variables, bounds,
coordinate system, driver and mask (without mask attributes) and by reads of variables, coordinate system and
mask survives the trip through a dictionary. -/
theorem C53_dict_reachable_partial (known : String → Bool) (ops : List Op)
    (hops : ∀ op ∈ ops, KeepsImportable op) (hok : AllSucceed known {} ops) :
    ∃ s', importStore known (run known {} ops) = .ok s' ∧ SameStore s' (run known {} ops) := by
  apply importStore_ok
  have key : ∀ (ops : List Op) (s : Store), Importable known s → (∀ op ∈ ops, KeepsImportable op) →
      AllSucceed known s ops → Importable known (run known s ops) := by
    intro ops
    induction ops with
    | nil => intro s h _ _; exact h
    | cons op ops ih =>
      intro s h hops hok
      rw [run, List.foldl_cons]
      exact ih _ (step_importable known s h op (hops op (by simp)) hok.1) (fun o ho => hops o (by simp [ho])) hok.2
  apply key ops {} _ hops hok
  exact ⟨rfl, rfl, rfl, by simp, by simp, by simp, by simp⟩

example : (∀ op ∈ [Op.setVariable "x" (some { name := "lon" }) { dimension := some ["x"], section_ := some "s" },
      .setBounds "x" "lon_bnds", .setCrs "wgs84", .getVariable "y"], KeepsImportable op)
    ∧ AllSucceed (fun _ => true) {} [Op.setVariable "x" (some { name := "lon" }) { dimension := some ["x"], section_ := some "s" },
      .setBounds "x" "lon_bnds", .setCrs "wgs84", .getVariable "y"] := by
  refine ⟨by simp [KeepsImportable, coordKeys], rfl, rfl, trivial, trivial, trivial⟩

/-- **C53 (counterexample, dictionaries)**: a map with a topology, with a grid abstraction, or whose bounds were
only read cannot be imported from its own dictionary; a spatial mask's own attributes are lost. -/
theorem C53_dict_counterexample (known : String → Bool) :
    importStore known { topology := true } = .error .dimensionMapError
    ∧ importStore known (step known {} (.setAbstraction "point")) = .error .attributeError
    ∧ importStore known (getBounds {} "x").2 = .error .dimensionMapError
    ∧ ∃ s', importStore known (setMask {} (some "mask") noAttrs fun a => if a = "kind" then some "land" else none) = .ok s'
        ∧ ((s'.entry "spatial_mask").attrs.getD noAttrs) "kind" = none := by
  refine ⟨rfl, rfl, rfl, ?_⟩
  exact ⟨_, rfl, rfl⟩

/-! ### Groups -/

/-- **C53 (groups, partial)**: setting the map of a group that does not exist yet below the root makes `get_group`
return it, and leaves every other group and the root as they were.  Missing, because false: replacing an
existing group and creating a group inside a missing one (`C53_group_counterexample`). -/
theorem C53_set_group_partial (m new : DMap) (n : String) (h : getGroup m [n] = .error .dimensionMapError) :
    ∃ m', setGroup m [n] new = .ok m' ∧ getGroup m' [n] = .ok new ∧ m'.own = m.own
      ∧ ∀ j ns, j ≠ n → getGroup m' (j :: ns) = getGroup m (j :: ns) := by
  have hf : findGroup m.groups n = none := by
    rw [getGroup] at h
    split at h
    · assumption
    · simp [getGroup] at h
  have hg := findGroup_append_new m.groups n new hf
  refine ⟨.mk m.own (m.groups ++ [(n, new)]), by rw [setGroup, hf], ?_, rfl, ?_⟩
  · rw [getGroup, groups_mk, hg, if_pos rfl]; rfl
  · intro j ns hj
    rw [getGroup, getGroup, groups_mk, hg, if_neg hj]

example : getGroup (.mk {} [("a", .mk {} [])]) ["b"] = .error .dimensionMapError := rfl

/-- **C53 (counterexample, groups)**: setting a group that exists changes nothing and raises nothing; setting a
group inside a missing group raises an `AttributeError`. -/
theorem C53_group_counterexample (m new old : DMap) (n k : String) :
    (getGroup m [n] = .ok old → setGroup m [n] new = .ok m)
    ∧ (getGroup m [n] = .error .dimensionMapError → setGroup m [n, k] new = .error .attributeError) := by
  constructor
  · intro h
    rw [getGroup] at h
    rw [setGroup]
    split at h
    · simp at h
    · next c hc => simp [hc]
  · intro h
    rw [getGroup] at h
    have hf : findGroup m.groups n = none := by
      split at h
      · assumption
      · simp [getGroup] at h
    rw [setGroup]
    · simp only [hf]
    · simp

/-- **C65 (partial)**: for metadata whose groups have distinct names and no nested groups, the map created from
the metadata returns for every group the map of that group, and for the root that of the root.  Missing,
because false: nested groups (`C65_nested_counterexample`). -/
theorem C65_group_maps_partial (s : Store) (gs : List (String × Store)) (hnd : (gs.map Prod.fst).Nodup) :
    ∃ m, fromMetadata (.mk s (gs.map fun g => (g.1, .mk g.2 []))) = .ok m
      ∧ m.own = s ∧ ∀ g ∈ gs, getGroup m [g.1] = .ok (.mk g.2 []) := by
  have key : ∀ (gs : List (String × Store)) (root : DMap), (gs.map Prod.fst).Nodup →
      (∀ g ∈ gs, findGroup root.groups g.1 = none) →
      ∃ m, addGroups root (gs.map fun g => (g.1, Meta.mk g.2 [])) = .ok m ∧ m.own = root.own
        ∧ (∀ g ∈ gs, getGroup m [g.1] = .ok (.mk g.2 []))
        ∧ ∀ j, j ∉ gs.map Prod.fst → findGroup m.groups j = findGroup root.groups j := by
    intro gs
    induction gs with
    | nil => intro root _ _; exact ⟨root, rfl, rfl, by simp, fun _ _ => rfl⟩
    | cons g gs ih =>
      intro root hnd hfree
      rw [List.map_cons, List.nodup_cons] at hnd
      have hf := hfree g (by simp)
      have hg := findGroup_append_new root.groups g.1 (.mk g.2 []) hf
      obtain ⟨m, h1, h2, h3, h4⟩ := ih (.mk root.own (root.groups ++ [(g.1, .mk g.2 [])])) hnd.2 (by
        intro x hx
        rw [groups_mk, hg, if_neg (fun e => hnd.1 (List.mem_map.2 ⟨x, hx, e⟩))]
        exact hfree x (by simp [hx]))
      refine ⟨m, ?_, h2, ?_, ?_⟩
      · rw [List.map_cons, addGroups, addMetadata, setGroup, hf]
        simp only [addGroups]
        exact h1
      · intro x hx
        rcases List.mem_cons.1 hx with rfl | hx
        · rw [getGroup, h4 _ hnd.1]
          rw [groups_mk, hg, if_pos rfl]; rfl
        · exact h3 x hx
      · intro j hj
        simp only [List.map_cons, List.mem_cons, not_or] at hj
        rw [h4 j hj.2]
        rw [groups_mk, hg, if_neg hj.1]
  obtain ⟨m, h1, h2, h3, _⟩ := key gs (.mk s []) hnd (by simp [DMap.groups, findGroup])
  exact ⟨m, by rw [fromMetadata]; exact h1, h2, h3⟩

example : ((([("a", {}), ("b", { driver := some "x" })] : List (String × Store)).map Prod.fst)).Nodup := by decide

/-- **C65 (counterexample)**: the map of a group inside another group is filed under its bare name at the root:
asking for its path raises, and when two groups contain a group of the same name the second one's map is
dropped. -/
theorem C65_nested_counterexample (s a b c d : Store) :
    (∃ m, fromMetadata (.mk s [("a", .mk a [("b", .mk b [])])]) = .ok m
      ∧ getGroup m ["a", "b"] = .error .dimensionMapError ∧ getGroup m ["b"] = .ok (.mk b []))
    ∧ (∃ m, fromMetadata (.mk s [("a", .mk a [("x", .mk b [])]), ("c", .mk c [("x", .mk d [])])]) = .ok m
      ∧ getGroup m ["x"] = .ok (.mk b [])) := by
  exact ⟨⟨_, rfl, rfl, rfl⟩, ⟨_, rfl, rfl⟩⟩

/-! ### Topologies -/

/-- **C53 (topologies, partial)**: a topology that is present is returned by every request; one that was never
asked for is created on request, and later requests return the created map; other topologies are not
affected.  Missing, because false: a topology asked for without creation first
(`C53_topology_counterexample`). -/
theorem C53_topology_partial {α : Type _} (fresh fresh' : α) (t : Topologies α) (n : String) :
    (∀ d c, t = some d → d n = some (some c) → ∀ create, (getTopology fresh t n create).1 = some c)
    ∧ ((∀ d, t = some d → d n = none) →
        (getTopology fresh t n true).1 = some fresh
        ∧ ∀ create, (getTopology fresh' (getTopology fresh t n true).2 n create).1 = some fresh)
    ∧ ∀ create j c, j ≠ n → (getTopology fresh t n create).2 = some c →
        c j = (t.getD fun _ => none) j := by
  refine ⟨?_, ?_, ?_⟩
  · rintro d c rfl h create
    simp [getTopology, topoDict, h]
  · intro h
    cases t with
    | none => simp [getTopology, topoDict]
    | some d => simp [getTopology, topoDict, h d rfl]
  · intro create j c hj h
    cases t with
    | none => cases create <;> simp_all [getTopology, topoDict]
              · rw [← h]; simp [hj]
    | some d => simp [getTopology, topoDict] at h; rw [← h]; simp [hj]

example : (getTopology 7 (some fun (n : String) => if n = "point" then some (some 3) else none) "point" false).1 = some 3 := rfl

/-- **C53 (counterexample, topologies)**: on a map with some other topology, asking for a missing topology without
creating it stores `None`, and asking again with creation then returns `None`. -/
theorem C53_topology_counterexample {α : Type _} (fresh other : α) :
    (getTopology fresh (getTopology fresh (some fun n => if n = "point" then some (some other) else none)
      "polygon" false).2 "polygon" true).1 = none := rfl

end Ocgis.Props
