import Verif.Proofs.NcOpen
/-!
# C109: opening a netCDF file shows what is in it

The metadata of a netCDF file should tell of all groups, dimensions, variables and attributes, and the field made from it should
have a child for each group, with the variables, dimensions, types, fill values and attributes of the file.
-/
namespace Ocgis.Props
open Ocgis.NcOpen
open Ocgis.Spec
open Ocgis.Proofs.NcOpen

/-- A file with a packed variable, an unlimited dimension and a group. -/
def ncExample : Tree NNode :=
  .mk ⟨[("title", "t")], [("time", ⟨3, true⟩), ("x", ⟨2, false⟩)],
    [("time", ⟨["time"], [("units", "days since 2000-1-1")], "f8", "f8", true⟩),
     ("tas", ⟨["time", "x"], [("_FillValue", "-1"), ("scale_factor", "0.1"), ("units", "K")], "i2", "f8", true⟩)]⟩
    [("g", .mk ⟨[], [("y", ⟨4, false⟩)], [("v", ⟨["y"], [("missing_value", "9")], "f4", "f4", true⟩)]⟩ [])]

/-- The metadata can be read if and only if the first elements of scaled variables can, and then tell everything about every
group. -/
theorem C109_metadata (t : Tree NNode) (hp : ProperFile t) :
    (ScaledReadable t → ∃ m, parse t = .ok m) ∧
    (∀ m, parse t = .ok m → ScaledReadable t ∧ SameGroups (fun _ => GroupMeta) t m) :=
  ⟨fun hr => parse_total hp hr, fun _ hm => ⟨(parse_ok hm).2, (parse_ok hm).1⟩⟩

/-- A file whose variables are at the root or in groups of it, each with different dimensions of its own group, is opened as a field
that has a child for each group, and what the group has; the predicate chooses the variables of the root.  Missing: groups in groups
(`C109_nested_never`, `C109_wrong_group_counterexample`), dimensions of enclosing groups (`C109_inherited_never`), dimensions that
appear twice (`C109_repeated_never`), a name for the field (`C109_named_never`) and variables of groups that do not satisfy the
predicate (`C109_predicate_counterexample`). -/
theorem C109_open_partial (t : Tree NNode) (pred : String → Bool) (hp : ProperFile t) (hr : ScaledReadable t) (hpl : PlainFile t) :
    ∃ f, openFile pred none t = .ok f ∧
      SameGroups (fun p => GroupIs (if p = [] then pred else fun _ => true)) t f := by
  obtain ⟨m, hm⟩ := parse_total hp hr
  have hs := (parse_ok hm).1
  let root := filterRoot pred m
  -- every group of the metadata, and the field made of it
  have hnode : ∀ p c, t.get p = some c → ∃ b f, root.get p = some b ∧ b.kids.map Prod.fst = c.kids.map Prod.fst ∧
      createNode root (nameAt none p) b.node = .ok f ∧
      GroupIs (if p = [] then pred else fun _ => true) c.node f := by
    intro p c hc
    rcases hs p with ⟨hn, _⟩ | ⟨a, b, h1, h2, h3, h4⟩
    · rw [hc] at hn; cases hn
    · rw [hc] at h1; cases h1
      have hnames := hp p c hc
      obtain ⟨hp1, hp2⟩ := hpl p c hc
      match p, h2 with
      | [], h2 =>
        cases h2
        obtain ⟨f, hf, hg⟩ := createNode_is (root := root) (src := none) pred h4 rfl hnames.2.1 hp2
        exact ⟨root, f, rfl, h3.symm, hf, by rw [if_pos rfl]; exact hg⟩
      | [k], h2 =>
        have hall : ∀ l : List (String × VMeta), (l.filter fun e => (fun _ => true : String → Bool) e.1) = l := fun l => by simp
        have hkeep : ({ b.node with vars := b.node.vars.filter fun e => (fun _ => true : String → Bool) e.1 } : MNode) = b.node := by
          rw [hall]
        have hg : groupOf root (some k) = .ok b.node := groupOf_get h2
        obtain ⟨f, hf, hg'⟩ := createNode_is (root := root) (src := some k) (fun _ => true) h4 (by rw [hkeep]; exact hg) hnames.2.1 hp2
        rw [hkeep] at hf
        exact ⟨b, f, h2, h3.symm, hf, hg'⟩
      | k :: k' :: p, h2 =>
        have hv : c.node.vars = [] := hp1 (by simp)
        have hmv : b.node.vars = [] := by
          have := h4.2.2
          rw [hv] at this
          exact List.forall₂_nil_left_iff.1 this
        refine ⟨b, ⟨b.node.attrs, []⟩, h2, h3.symm, ?_, ?_⟩
        · unfold createNode
          rw [hmv]
          rfl
        · refine ⟨h4.1, ?_⟩
          rw [hv]
          exact .nil
  have hget : ∀ p b, root.get p = some b → ∃ c, t.get p = some c := by
    intro p b hb
    by_cases hp0 : p = []
    · exact ⟨t, by rw [hp0]; rfl⟩
    · rw [show root = filterRoot pred m from rfl, filterRoot_get pred m hp0] at hb
      rcases hs p with ⟨_, hn⟩ | ⟨a, _, h1, _⟩
      · rw [hb] at hn; cases hn
      · exact ⟨a, h1⟩
  obtain ⟨f, hf⟩ := walk_total (f := createNode root) none root fun p b hb => by
    obtain ⟨c, hc⟩ := hget p b hb
    obtain ⟨b', f, h1, h2, h3, _⟩ := hnode p c hc
    rw [hb] at h1
    cases h1
    exact ⟨by rw [h2]; exact (hp p c hc).1, f, h3⟩
  refine ⟨f, by unfold openFile; rw [hm]; exact hf, fun p => ?_⟩
  rcases walk_same hf p with ⟨h1, h2⟩ | ⟨a, b, h1, h2, h3, h4⟩
  · refine .inl ⟨?_, h2⟩
    cases hc : t.get p with
    | none => rfl
    | some c =>
      obtain ⟨b', _, h3, _⟩ := hnode p c hc
      rw [h1] at h3; cases h3
  · obtain ⟨c, hc⟩ := hget p a h1
    obtain ⟨b', f', g1, g2, g3, g4⟩ := hnode p c hc
    rw [h1] at g1
    cases g1
    rw [g3] at h4
    cases h4
    exact .inr ⟨c, b, hc, h2, g2.symm.trans h3, g4⟩

/-- The type of a variable is that of the values netCDF4 reads, if no offset is added without a factor.  Missing: variables with an
offset only (`C109_offset_counterexample`). -/
theorem C109_dtype_partial (b : NNode) (v : NVar) (f : FVar) (hv : VarIs b v f) (ho : HasOffset v → HasScale v) : ReadType v f.dtype := by
  by_cases hs : HasScale v
  · exact ⟨fun _ => (hv.2.2.1 hs).1, fun h => absurd hs h⟩
  · exact ⟨fun h => absurd (h.elim id ho) hs, fun _ _ => (hv.2.2.2 hs).1⟩

/-- A file with a variable that has an offset but no factor is opened, and its type is that of the packed integers, not of the
values: they are truncated when they are loaded (variable/base.py:765-823). -/
theorem C109_offset_counterexample : ∃ (t : Tree NNode) (f : Tree FNode) (v : NVar) (y : FVar), openFile (fun _ => true) none t = .ok f ∧
    ("v", v) ∈ t.node.vars ∧ ("v", y) ∈ f.node.vars ∧ ¬ ReadType v y.dtype := by
  refine ⟨.mk ⟨[], [("x", ⟨2, false⟩)], [("v", ⟨["x"], [("add_offset", "0.5")], "i2", "f8", true⟩)]⟩ [], _, _, _, rfl,
    List.mem_singleton.2 rfl, List.mem_singleton.2 rfl, fun h => ?_⟩
  have := h.1 (.inr ⟨"0.5", List.mem_singleton.2 rfl⟩)
  exact absurd this (by decide)

/-- A file with a variable in a group of a group is not opened, unless a group of the root has the name of the inner group and a
variable of the same name. -/
theorem C109_nested_never (t : Tree NNode) (pred : String → Bool) (src : Option String) (p : List String) (k x : String) (c : Tree NNode)
    (hc : t.get (p ++ [k]) = some c) (hx : x ∈ c.node.vars.map Prod.fst)
    (hno : ∀ c', t.get [k] = some c' → x ∉ c'.node.vars.map Prod.fst) (f : Tree FNode) : openFile pred src t ≠ .ok f := by
  intro h
  obtain ⟨m, hm, _, hall⟩ := open_vars h
  obtain ⟨e, he, rfl⟩ := List.mem_map.1 hx
  have hne : p ++ [k] ≠ [] := by simp
  obtain ⟨b, _, v, y, _, _, hi⟩ := hall _ c hc e he fun h0 => absurd h0 hne
  rw [nameAt_append] at hi
  obtain ⟨_, g, m', hg, hl, _⟩ := initVar_ok hi
  obtain ⟨u, hu, rfl⟩ := groupOf_ok hg
  rw [filterRoot_get pred m (by simp)] at hu
  rcases (parse_ok hm).1 [k] with ⟨_, hn⟩ | ⟨a, b', h1, h2, _, h4⟩
  · rw [hu] at hn; cases hn
  · rw [hu] at h2
    cases h2
    refine hno a h1 ?_
    rw [forall2_names (fun a b h => h.1) h4.2.2]
    exact List.mem_map.2 ⟨_, lookup_mem hl, rfl⟩

example (f : Tree FNode) : openFile (fun _ => true) none (.mk ⟨[], [], []⟩
    [("a", .mk ⟨[], [], []⟩ [("b", .mk ⟨[], [("y", ⟨3, false⟩)], [("v", ⟨["y"], [], "f8", "f8", true⟩)]⟩ [])])]) ≠ .ok f :=
  C109_nested_never _ _ _ ["a"] "b" "v" _ rfl (by simp [Tree.node]) (fun c' h => by cases h) f

/-- If there is such a group, the variable of the inner group is opened with the dimensions of the other one. -/
theorem C109_wrong_group_counterexample : ∃ (t : Tree NNode) (f c : Tree FNode) (y : FVar), openFile (fun _ => true) none t = .ok f ∧
    (∃ d v, t.get ["a", "b"] = some d ∧ ("v", v) ∈ d.node.vars ∧ v.dims = ["y"]) ∧
    f.get ["a", "b"] = some c ∧ ("v", y) ∈ c.node.vars ∧ y.dims.map FDim.name = ["x"] :=
  ⟨.mk ⟨[], [], []⟩
    [("a", .mk ⟨[], [], []⟩ [("b", .mk ⟨[], [("y", ⟨3, false⟩)], [("v", ⟨["y"], [], "f8", "f8", true⟩)]⟩ [])]),
     ("b", .mk ⟨[], [("x", ⟨2, false⟩)], [("v", ⟨["x"], [], "f4", "f4", true⟩)]⟩ [])],
    _, _, _, rfl, ⟨_, _, rfl, List.mem_singleton.2 rfl, rfl⟩, rfl, List.mem_singleton.2 rfl, rfl⟩

/-- A file with a variable that has a dimension its own group does not define is not opened, though netCDF variables have the
dimensions of enclosing groups. -/
theorem C109_inherited_never (t : Tree NNode) (pred : String → Bool) (hp : ProperFile t) (p : List String) (c : Tree NNode)
    (hpl : p.length ≤ 1) (hc : t.get p = some c) (e : String × NVar) (he : e ∈ c.node.vars) (hpe : p = [] → pred e.1 = true) (d : String)
    (hd : d ∈ e.2.dims) (hno : ∀ x, (d, x) ∉ c.node.dims) (f : Tree FNode) : openFile pred none t ≠ .ok f := by
  intro h
  obtain ⟨x, hx⟩ := (open_own h hp hpl hc he hpe).2 d hd
  exact hno x hx

/-- Two groups; the variable of the inner one has the dimension of the root. -/
example (f : Tree FNode) : openFile (fun _ => true) none (.mk ⟨[], [("x", ⟨2, false⟩)], []⟩
    [("g", .mk ⟨[], [], [("v", ⟨["x"], [], "f8", "f8", true⟩)]⟩ [])]) ≠ .ok f := by
  refine C109_inherited_never _ _ ?_ ["g"] _ (by simp) rfl ("v", _) (List.mem_singleton.2 rfl) (fun h => by cases h) "x" (by simp)
    (fun x h => by cases h) f
  intro p c h
  match p, h with
  | [], h => cases h; simp [Tree.node, Tree.kids]
  | k :: p, h =>
    by_cases hk : k = "g"
    · subst hk
      match p, h with
      | [], h => cases h; simp [Tree.node, Tree.kids]
      | k' :: p, h => cases h
    · unfold Tree.get Tree.kids at h
      have : (k == "g") = false := by simpa using hk
      simp [List.lookup_cons, this] at h

/-- A file with a variable that has a dimension twice is not opened. -/
theorem C109_repeated_never (t : Tree NNode) (pred : String → Bool) (hp : ProperFile t) (p : List String) (c : Tree NNode)
    (hpl : p.length ≤ 1) (hc : t.get p = some c) (e : String × NVar) (he : e ∈ c.node.vars) (hpe : p = [] → pred e.1 = true)
    (hd : ¬ e.2.dims.Nodup) (f : Tree FNode) : openFile pred none t ≠ .ok f :=
  fun h => hd (open_own h hp hpl hc he hpe).1

example (f : Tree FNode) : openFile (fun _ => true) none
    (.mk ⟨[], [("x", ⟨2, false⟩)], [("cov", ⟨["x", "x"], [], "f8", "f8", true⟩)]⟩ []) ≠ .ok f := by
  refine C109_repeated_never _ _ ?_ [] _ (by simp) rfl ("cov", _) (List.mem_singleton.2 rfl) (fun _ => rfl) (by simp) f
  intro p c h
  match p, h with
  | [], h => cases h; simp [Tree.node, Tree.kids]
  | k :: p, h => cases h

/-- A raw field is not created under a name if the root has a variable, unless a group of that name has a variable of the same
name. -/
theorem C109_named_never (t : Tree NNode) (pred : String → Bool) (n x : String) (hx : x ∈ t.node.vars.map Prod.fst) (hpx : pred x = true)
    (hno : ∀ c', t.get [n] = some c' → x ∉ c'.node.vars.map Prod.fst) (f : Tree FNode) : openFile pred (some n) t ≠ .ok f := by
  intro h
  obtain ⟨m, hm, _, hall⟩ := open_vars h
  obtain ⟨e, he, rfl⟩ := List.mem_map.1 hx
  obtain ⟨b, _, v, y, _, _, hi⟩ := hall [] t rfl e he fun _ => hpx
  obtain ⟨_, g, m', hg, hl, _⟩ := initVar_ok hi
  obtain ⟨u, hu, rfl⟩ := groupOf_ok hg
  rw [filterRoot_get pred m (by simp)] at hu
  rcases (parse_ok hm).1 [n] with ⟨_, hn⟩ | ⟨a, b', h1, h2, _, h4⟩
  · rw [hu] at hn; cases hn
  · rw [hu] at h2
    cases h2
    refine hno a h1 ?_
    rw [forall2_names (fun a b h => h.1) h4.2.2]
    exact List.mem_map.2 ⟨_, lookup_mem hl, rfl⟩

example (f : Tree FNode) : openFile (fun _ => true) (some "mine") ncExample ≠ .ok f :=
  C109_named_never ncExample _ "mine" "tas" (by simp [ncExample, Tree.node]) rfl (fun c' h => by cases h) f

/-- Variables of groups are in the field whatever the predicate says. -/
theorem C109_predicate_counterexample : ∃ (t : Tree NNode) (f c : Tree FNode), openFile (fun n => n == "time") none t = .ok f ∧
    f.get ["g"] = some c ∧ c.node.vars.map Prod.fst = ["v"] :=
  ⟨ncExample, _, _, rfl, rfl, rfl⟩

/-- The example file is one of those that are opened. -/
example : ProperFile ncExample ∧ ScaledReadable ncExample ∧ PlainFile ncExample := by
  have hcases : ∀ p c, ncExample.get p = some c → (p = [] ∧ c = ncExample) ∨ (p = ["g"] ∧ c = .mk ⟨[], [("y", ⟨4, false⟩)], [("v", ⟨["y"], [("missing_value", "9")], "f4", "f4", true⟩)]⟩ []) := by
    intro p c h
    match p, h with
    | [], h => cases h; exact .inl ⟨rfl, rfl⟩
    | k :: p, h =>
      by_cases hk : k = "g"
      · subst hk
        match p, h with
        | [], h => cases h; exact .inr ⟨rfl, rfl⟩
        | k' :: p, h => cases h
      · unfold Tree.get ncExample Tree.kids at h
        have : (k == "g") = false := by simpa using hk
        simp [List.lookup_cons, this] at h
  refine ⟨fun p c h => ?_, fun p c h => ?_, fun p c h => ?_⟩ <;> rcases hcases p c h with ⟨rfl, rfl⟩ | ⟨rfl, rfl⟩ <;>
    simp [ncExample, Tree.node, Tree.kids]

/-- And its packed variable has the type of the values. -/
example : ∃ f y, openFile (fun _ => true) none ncExample = .ok f ∧ f.node.vars.lookup "tas" = some y ∧ y.dtype = "f8" ∧
    y.dims = [⟨"time", none, some 3⟩, ⟨"x", some 2, some 2⟩] ∧ y.attrs = [("_FillValue", "-1"), ("units", "K")] :=
  ⟨_, _, rfl, rfl, rfl, rfl, rfl⟩

end Ocgis.Props
