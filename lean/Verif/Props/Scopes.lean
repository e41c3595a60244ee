import Verif.Proofs.Scopes
/-!
# C37: emptiness of nested collections; C39: scopes; C40: names
-/
namespace Ocgis.Props
open Ocgis.Scopes Ocgis.Spec

/-! ## C37 -/

/-- C37: what decides the report, for a collection that was not made empty: its own variables and its last child. -/
theorem C37_last_child_decides (vars : List Bool) (children : List Tree) (last : Tree) :
    (reportedEmpty (.node none vars []) = true ↔ true ∈ vars) ∧
    (reportedEmpty (.node none vars (children ++ [last])) = true ↔ true ∈ vars ∨ reportedEmpty last = true) := by
  refine ⟨?_, ?_⟩
  · simp [reportedEmpty, loopChildren]
  · simp only [reportedEmpty, loopChildren_append]
    by_cases h : true ∈ vars <;> simp [h]

/-- C37 (uniform trees): a collection which is empty with all of its descendants is reported empty; one which is not, and none of
whose descendants is, is not. -/
theorem C37_uniform_partial (t : Tree) : (Everywhere ItselfEmpty t → reportedEmpty t = true) ∧
    (Everywhere (fun t => ¬ ItselfEmpty t) t → reportedEmpty t = false) := by
  refine ⟨?_, ?_⟩
  · intro h
    cases h with
    | node flag vars children h1 h2 =>
      cases flag with
      | some b => exact h1
      | none =>
        have : true ∈ vars := h1
        simp [reportedEmpty, this]
  · intro h
    induction h with
    | node flag vars children h1 h2 ih =>
      cases flag with
      | some b => simpa [ItselfEmpty, reportedEmpty] using h1
      | none =>
        have hno : true ∉ vars := h1
        cases hc : children.reverse with
        | nil =>
          have : children = [] := by simpa using hc
          subst this
          cases hr : reportedEmpty (.node none vars []) with
          | false => rfl
          | true => exact absurd ((C37_last_child_decides vars [] (.node none [] [])).1.1 hr) hno
        | cons l rest =>
          have hch : children = rest.reverse ++ [l] := by
            have := congrArg List.reverse hc
            simpa using this
          subst hch
          cases hr : reportedEmpty (.node none vars (rest.reverse ++ [l])) with
          | false => rfl
          | true =>
            rcases (C37_last_child_decides vars rest.reverse l).2.1 hr with h | h
            · exact absurd h hno
            · rw [ih l (by simp)] at h; cases h

example : Everywhere ItselfEmpty (.node none [true, false] [.node (some true) [] [], .node none [true] []]) := by
  refine .node _ _ _ (by simp [ItselfEmpty]) ?_
  intro t ht
  simp at ht
  rcases ht with rfl | rfl
  · exact .node _ _ _ rfl (by simp)
  · exact .node _ _ _ (by simp [ItselfEmpty]) (by simp)

/-- C37 is false: only the last child counts. With a child that is not empty before one that is, the collection is reported empty
although neither it nor the first child is; with the children the other way round it is not. -/
theorem C37_counterexample :
    reportedEmpty (.node none [false] [.node none [false] [], .node none [true] []]) = true ∧
    ¬ ItselfEmpty (.node none [false] [.node none [false] [], .node none [true] []]) ∧
    reportedEmpty (.node none [false] [.node none [true] [], .node none [false] []]) = false := by
  refine ⟨by decide, by simp [ItselfEmpty], by decide⟩

/-! ## C39 -/

/-- C39: after the scope every dimension given to it has the name it had before, whatever the body does and whether or not it raises;
its exception comes through. -/
theorem C39_renamed_dimensions (dims : List Nat) (m : NameMapping) (body : Heap → Heap × Option PyErr) (h : Heap) :
    (∀ d ∈ dims, (renamedDimensions dims m body h).1 d = h d) ∧
    (renamedDimensions dims m body h).2 = (body (renameAll m h dims)).2 ∧
    ∀ d, d ∉ dims → (renamedDimensions dims m body h).1 d = (body (renameAll m h dims)).1 d := by
  have hz : (dims.zip (dims.map h)).map (·.1) = dims := by
    rw [List.map_fst_zip]; simp
  refine ⟨?_, rfl, ?_⟩
  · intro d hd
    simp only [renamedDimensions]
    apply restoreAll_mem
    · intro x hx
      rw [zip_map_self] at hx
      obtain ⟨a, _, rfl⟩ := List.mem_map.1 hx
      rfl
    · rw [hz]; exact hd
  · intro d hd
    simp only [renamedDimensions]
    rw [restoreAll_other _ _ _ (by rw [hz]; exact hd)]

/-- C39: inside the scope the dimensions have their new names: the key of the first entry of the mapping that lists the old name, or the
old name if none does. -/
theorem C39_inside (dims : List Nat) (m : NameMapping) (h : Heap) (hnd : dims.Nodup) (d : Nat) (hd : d ∈ dims) :
    (∀ pre k olds post, m = pre ++ (k, olds) :: post → h d ∈ olds → (∀ e ∈ pre, h d ∉ e.2) → renameAll m h dims d = k) ∧
    ((∀ e ∈ m, h d ∉ e.2) → renameAll m h dims d = h d) := by
  have key : ∀ (ds : List Nat) (g : Heap), ds.Nodup → d ∈ ds → renameAll m g ds d = newName m (g d) := by
    intro ds
    induction ds with
    | nil => intro g _ hm; cases hm
    | cons a l ih =>
      intro g hn hm
      rw [List.nodup_cons] at hn
      rw [renameAll]
      by_cases ha : d = a
      · subst ha
        rw [renameAll_other _ _ _ _ hn.1]
        simp [Heap.put]
      · have hml : d ∈ l := by
          rcases List.mem_cons.1 hm with h | h
          · exact absurd h ha
          · exact h
        rw [ih _ hn.2 hml]
        simp [Heap.put, ha]
  rw [key dims h hnd hd]
  refine ⟨?_, ?_⟩
  · intro pre k olds post hm hin hpre
    subst hm
    have : pre.find? (fun kv => kv.2.contains (h d)) = none := by
      rw [List.find?_eq_none]
      intro e he
      simp [hpre e he]
    have hin' : olds.contains (h d) = true := by simpa using hin
    simp only [newName, List.find?_append, this, List.find?_cons, hin', Option.none_or, Option.map_some, Option.getD_some]
  · intro hno
    have : m.find? (fun kv => kv.2.contains (h d)) = none := by
      rw [List.find?_eq_none]
      intro e he
      simp [hno e he]
    simp only [newName, this, Option.map_none, Option.getD_none]

example : renameAll [("lat", ["y", "j"]), ("lon", ["x"])] (fun d => ["time", "j", "x"].getD d "") [1, 2] 1 = "lat" := by decide

/-- The exception that ends the scope: that of the setting up, or the body's. -/
def scopeError (m : NameMapping) (body : VC → VC × Option PyErr) (c : VC) : Option PyErr :=
  match (enterRenamed m c).2 with
  | .error e => some e
  | .ok c' => (body c').2

/-- C39 (scopes that add no variable): after the scope the collection's dimensions, their names, and the dimension names of its variables
are what they were before, whatever else the body does, and also when it or the setting up raises; the exception comes through. -/
theorem C39_renamed_on_variables_partial (m : NameMapping) (body : VC → VC × Option PyErr) (c : VC) (hw : WellNamed c)
    (hbody : ∀ c' n d, (n, d) ∈ (body c').1.vars → n ∈ c.vars.map (·.1)) :
    (renamedOnVariables m body c).2 = scopeError m body c ∧
    (renamedOnVariables m body c).1.dims = c.dims ∧
    (∀ k d, (k, d) ∈ c.dims → (renamedOnVariables m body c).1.heap d = c.heap d) ∧
    (∀ n d, (n, d) ∈ (renamedOnVariables m body c).1.vars → (n, d) ∈ c.vars) ∧
    ((∀ c', (body c').1.vars.map (·.1) = c.vars.map (·.1)) → (renamedOnVariables m body c).1.vars = c.vars) := by
  have conv : ∀ l : List (String × List String), (∀ n d, (n, d) ∈ l → n ∈ c.vars.map (·.1)) →
      ∀ n d, (n, d) ∈ l → ∃ d', (n, d') ∈ c.vars := by
    intro l hl n d hm
    obtain ⟨⟨n', d'⟩, h1, h2⟩ := List.mem_map.1 (hl n d hm)
    simp only at h2
    subst h2
    exact ⟨d', h1⟩
  have same : ∀ l : List (String × List String), l.map (·.1) = c.vars.map (·.1) → (∀ n d, (n, d) ∈ l → (n, d) ∈ c.vars) → l = c.vars := by
    intro l h1 h2
    have hlen : l.length = c.vars.length := by simpa using congrArg List.length h1
    apply List.ext_getElem hlen
    intro i hi hi'
    have hm : l[i] ∈ c.vars := h2 l[i].1 l[i].2 (List.getElem_mem _)
    obtain ⟨j, hj, hje⟩ := List.getElem_of_mem hm
    have hk : (c.vars.map (·.1))[i]'(by simpa using hi') = (c.vars.map (·.1))[j]'(by simpa using hj) := by
      have : (l.map (·.1))[i]'(by simpa using hi) = (c.vars.map (·.1))[i]'(by simpa using hi') := by simp only [h1]
      rw [← this]
      simp [hje]
    have hij : i = j := by
      have := hw.varKeys
      exact (List.getElem_inj this).1 hk
    subst hij
    exact hje.symm
  unfold renamedOnVariables scopeError
  cases hent : enterRenamed m c with
  | mk h r =>
    cases r with
    | error e =>
      obtain ⟨g1, g2, g3, g4, g5⟩ := restore_spec c { c with heap := h } (some e) hw (fun n d hm => ⟨d, hm⟩)
      exact ⟨g1, g2, g3, g5, fun _ => same _ g4 g5⟩
    | ok c' =>
      cases hb : body c' with
      | mk c'' e =>
        obtain ⟨g1, g2, g3, g4, g5⟩ := restore_spec c c'' e hw (conv _ (by
          intro n d hm
          exact hbody c' n d (by rw [hb]; exact hm)))
        simp only [hb]
        refine ⟨g1, g2, g3, g5, ?_⟩
        intro hall
        refine same _ (g4.trans ?_) g5
        have := hall c'
        rw [hb] at this
        exact this

/-- A collection with two dimensions and two variables. -/
def scopeExample : VC := ⟨fun d => ["y", "x"].getD d "", [("y", 0), ("x", 1)], [("tas", ["y", "x"]), ("lev", ["x"])]⟩

example : WellNamed scopeExample := by
  refine ⟨?_, by decide, by decide⟩
  intro k d h
  simp [scopeExample] at h
  rcases h with ⟨rfl, rfl⟩ | ⟨rfl, rfl⟩ <;> rfl

/-- Inside the scope the names are the new ones, and a body that raises leaves the old ones. -/
example : (∃ c', (enterRenamed [("lat", ["y"])] scopeExample).2 = .ok c' ∧ c'.dims = [("x", 1), ("lat", 0)] ∧ c'.heap 0 = "lat" ∧
      c'.vars = [("tas", ["lat", "x"]), ("lev", ["x"])]) ∧
    (renamedOnVariables [("lat", ["y"])] (fun c => (c, some .valueError)) scopeExample).2 = some .valueError ∧
    (renamedOnVariables [("lat", ["y"])] (fun c => (c, some .valueError)) scopeExample).1.vars = scopeExample.vars := by
  refine ⟨⟨_, rfl, ?_, ?_, ?_⟩, ?_, ?_⟩ <;> decide

/-- C39 is false when the body adds a variable (or renames one): the scope ends with a `KeyError`, and the variables after the new one keep
their temporary dimension names. -/
theorem C39_added_variable_counterexample :
    let body : VC → VC × Option PyErr := fun c => ({ c with vars := ("new", ["x"]) :: c.vars }, none)
    (renamedOnVariables [("lat", ["y"])] body scopeExample).2 = some .keyError ∧
    (renamedOnVariables [("lat", ["y"])] body scopeExample).1.vars = [("new", ["x"]), ("tas", ["lat", "x"]), ("lev", ["x"])] := by
  decide

/-- C39: inside the scope a mapping that swaps two names does not swap them on the variables. -/
theorem C39_swap_counterexample :
    renameVar [("y", ["x"]), ("x", ["y"])] ("tas", ["y", "x"]) = .ok ("tas", ["y", "x"]) := by decide

/-- C39: after the scope the grid's abstraction is what it was before, whatever the body does and whether or not it raises; if the
abstraction asked for is not available the scope is refused, or runs the body with the abstraction unchanged. -/
theorem C39_abstraction (a : String) (strict : Bool) (body : AGrid → AGrid × Option PyErr) (g : AGrid) :
    (abstractionScope a strict body g).1.abstraction = g.abstraction ∧
    (a ∈ g.available → (abstractionScope a strict body g).2 = (body { g with stored := some a }).2) ∧
    (a ∉ g.available → strict = true → abstractionScope a strict body g = (g, some .valueError)) ∧
    (a ∉ g.available → strict = false → (abstractionScope a strict body g).2 = (body g).2) := by
  refine ⟨?_, ?_, ?_, ?_⟩
  · simp only [abstractionScope]
    split
    · rfl
    · split <;> rfl
  · intro h; simp [abstractionScope, h]
  · intro h hs; simp [abstractionScope, h, hs]
  · intro h hs; simp [abstractionScope, h, hs]

/-- C39 is false of the stored abstraction: an automatic abstraction is fixed by the scope, and no longer follows the grid when bounds
are added to it. -/
theorem C39_automatic_abstraction_counterexample :
    let g : AGrid := ⟨none, ["point"]⟩
    let after := (abstractionScope "point" true (fun g => (g, none)) g).1
    after ≠ g ∧ ({ g with available := ["polygon", "point"] } : AGrid).abstraction = "polygon" ∧
    ({ after with available := ["polygon", "point"] } : AGrid).abstraction = "point" := by
  decide

/-! ## C40 -/

/-- C40: over any history of renames the source name is the one given at creation, or else the first name. -/
theorem C40_source_name (name : String) (aliases : List String) (source : Option String) (ops : List NameOp) :
    ((Named.create name aliases source).run ops).sourceName = some (source.getD name) := by
  have key : ∀ (ops : List NameOp) (o : Named) (s : String), o.source = some s → (o.run ops).source = some s := by
    intro ops
    induction ops with
    | nil => intro o s h; exact h
    | cons op ops ih =>
      intro o s h
      cases op with
      | setName n as => exact ih _ _ (by simp [Named.setName, h])
      | appendAlias a => exact ih _ _ h
  have h0 : (Named.create name aliases source).source = some (source.getD name) := by
    cases source <;> rfl
  rw [Named.sourceName, key ops _ _ h0]
  rfl

/-- C40: the object has the last name it was given, and can be found by it and by every alias given with it or since. -/
theorem C40_name_and_aliases_partial (o : Named) (before after : List NameOp) (n : String) (as : List String)
    (hafter : ∀ op ∈ after, ∃ a, op = .appendAlias a) :
    (o.run (before ++ .setName n as :: after)).name = some n ∧
    (∀ a, a ∈ (o.run (before ++ .setName n as :: after)).aliases ↔ a = n ∨ a ∈ as ∨ NameOp.appendAlias a ∈ after) := by
  have h1 : ∀ (l : List NameOp) (r : List NameOp) (o : Named), o.run (l ++ r) = (o.run l).run r := by
    intro l
    induction l with
    | nil => intro r o; rfl
    | cons op l ih => intro r o; cases op <;> exact ih _ _
  have h2 : ∀ (l : List NameOp) (o : Named), (∀ op ∈ l, ∃ a, op = .appendAlias a) → (o.run l).name = o.name ∧
      ∀ a, a ∈ (o.run l).aliases ↔ a ∈ o.aliases ∨ NameOp.appendAlias a ∈ l := by
    intro l
    induction l with
    | nil => intro o _; exact ⟨rfl, by simp [Named.run]⟩
    | cons op l ih =>
      intro o h
      obtain ⟨b, rfl⟩ := h op (by simp)
      obtain ⟨i1, i2⟩ := ih (o.appendAlias b) (fun op hop => h op (List.mem_cons_of_mem _ hop))
      refine ⟨i1, ?_⟩
      intro a
      rw [Named.run, i2]
      simp only [Named.appendAlias, List.mem_append, List.mem_cons, List.not_mem_nil, or_false, NameOp.appendAlias.injEq]
      grind
  rw [h1]
  have h3 := h2 after ((o.run before).setName n as) hafter
  refine ⟨h3.1, ?_⟩
  intro a
  rw [show (o.run before).run (.setName n as :: after) = ((o.run before).setName n as).run after from rfl, h3.2]
  simp only [Named.setName, List.mem_append, List.mem_singleton]
  grind

example : ((Named.create "tas" [] none).run [.setName "t2m" ["temp"], .setName "air" ["a"], .appendAlias "b"]).sourceName = some "tas" ∧
    ((Named.create "tas" [] none).run [.setName "t2m" ["temp"], .setName "air" ["a"], .appendAlias "b"]).aliases = ["a", "air", "b"] := by
  decide

/-- C40 is false of the aliases: a rename forgets the aliases recorded before it, the earlier names included. -/
theorem C40_aliases_counterexample :
    "tas" ∈ (Named.create "tas" ["temp"] none).aliases ∧ "temp" ∈ (Named.create "tas" ["temp"] none).aliases ∧
    ((Named.create "tas" ["temp"] none).run [.setName "t2m" []]).aliases = ["t2m"] := by
  decide

end Ocgis.Props
