import Verif.Proofs.SpatialColl

namespace Ocgis.Props
open Ocgis Ocgis.SpatialColl Ocgis.Spec

/-- **C58 (acceptance)**: after any history of additions, an addition succeeds exactly when it is forced or its
container has no field of that name yet; otherwise it raises a `ValueError` and the iteration stays as it was. -/
theorem C58_acceptance (as : List Add) (a : Add) (h : ∀ b ∈ as ++ [a], b.held = []) :
    ((addField (run as) a).1 = .ok () ↔ Acceptable as a)
    ∧ (¬ Acceptable as a → addField (run as) a = (.error .valueError, run (as ++ [a]))
        ∧ iterFields (run (as ++ [a])) = iterFields (run as)) := by
  have hf := filed_run as fun b hb => h b (by simp [hb])
  have hs := filed_step hf a (h a (by simp))
  refine ⟨hs.2.1, fun hn => ?_⟩
  rw [run_snoc]
  refine ⟨?_, ?_⟩
  · rw [← hs.2.2 hn]
  · rcases addField_cases (run as) a (h a (by simp)) with ⟨hr, e⟩ | ⟨hr, e⟩
    · rw [e]
      have hmem : a.key ∈ (run as).map Prod.fst := by
        have := (filed_name hf a.key a.name).1 hr.1
        obtain ⟨b, hb, h1, _⟩ := this
        rw [hf.keys, mem_firsts]
        exact List.mem_map.2 ⟨b, hb, h1⟩
      have key : ∀ (st : Coll), a.key ∈ st.map Prod.fst → put st a.key ((get? st a.key).getD []) = st := by
        intro st
        induction st with
        | nil => intro h; simp at h
        | cons c st ih =>
          intro hm
          simp only [put]
          by_cases hc : c.1 = a.key
          · rw [if_pos hc]
            simp [get?, ← hc]
          · rw [if_neg hc]
            simp only [List.map_cons, List.mem_cons] at hm
            have hm' := hm.resolve_left fun e => hc e.symm
            have := ih hm'
            simp only [get?, List.find?_cons, hc, decide_false] at this ⊢
            rw [this]
      simp only
      rw [key _ hmem]
    · rw [e] at hs
      exact absurd (hs.2.1.1 rfl) hn

/-- **C58 (iteration)**: after any history of additions, forced or not, accepted or not, the iteration goes through
the containers in the order of their first use and through the names in each container in the order they were
first added there, every name once; with each comes the field last filed under it. -/
theorem C58_iteration (as : List Add) (h : ∀ a ∈ as, a.held = []) :
    (iterFields (run as)).map (fun e => (e.1, e.2.1))
      = (firsts (as.map Add.key)).flatMap (fun k => (firsts ((as.filter fun a => a.key = k).map Add.name)).map fun n => (k, n))
    ∧ ∀ e ∈ iterFields (run as), LastFiled as e.1 e.2.1 e.2.2 := by
  have hf := filed_run as h
  have hnd : ((run as).map Prod.fst).Nodup := by rw [hf.keys]; exact nodup_firsts _
  constructor
  · rw [← hf.keys, List.flatMap_map, iterFields, List.map_flatMap]
    rw [List.flatMap_def, List.flatMap_def]
    congr 1
    apply List.map_congr_left
    intro c hc
    have hg : get? (run as) c.1 = some c.2 := (get_mem _ hnd _ _).2 hc
    have := hf.names c.1
    rw [hg, Option.getD_some] at this
    rw [← this, List.map_map, List.map_map]
    rfl
  · intro e he
    simp only [iterFields, List.mem_flatMap, List.mem_map] at he
    obtain ⟨c, hc, x, hx, rfl⟩ := he
    have hg : get? (run as) c.1 = some c.2 := (get_mem _ hnd _ _).2 hc
    refine hf.fields c.1 x.1 x.2 ?_
    rw [hg, Option.getD_some, get_mem]
    · exact hx
    · have := hf.names c.1
      rw [hg, Option.getD_some] at this
      rw [this]; exact nodup_firsts _

/-- **C58 (order of first occurrence)**: what the lists in `C58_iteration` are: without repetition, with the same
elements, and with an element before another exactly when it occurs first before it. -/
theorem C58_firsts {α : Type} [DecidableEq α] (l : List α) :
    (firsts l).Nodup ∧ (∀ a, a ∈ firsts l ↔ a ∈ l) ∧ (firsts l).Pairwise fun a b => l.idxOf a < l.idxOf b := by
  refine ⟨nodup_firsts l, mem_firsts l, ?_⟩
  induction l with
  | nil => exact .nil
  | cons b l ih =>
    simp only [firsts, List.pairwise_cons, List.mem_filter, decide_eq_true_eq]
    refine ⟨?_, ?_⟩
    · rintro a ⟨_, hne⟩
      rw [List.idxOf_cons_self, idxOf_cons_other _ _ _ (Ne.symm hne)]
      omega
    · refine (ih.filter _).imp_of_mem ?_
      intro x y hx hy hxy
      simp only [List.mem_filter, decide_eq_true_eq] at hx hy
      rw [idxOf_cons_other _ _ _ (Ne.symm hx.2), idxOf_cons_other _ _ _ (Ne.symm hy.2)]
      omega

/-- Three additions to two containers. -/
def sampleAdds : List Add :=
  [{ key := some 1, name := "a", field := 10 }, { key := none, name := "a", field := 11 },
   { key := some 1, name := "b", field := 12 }]

example : ∀ a ∈ sampleAdds, a.held = [] := by decide
example : iterFields (run sampleAdds) = [(some 1, "a", 10), (some 1, "b", 12), (none, "a", 11)] := by decide
example : Acceptable sampleAdds { key := some 1, name := "c", field := 13 } := .inr (by decide)
example : ¬ Acceptable sampleAdds { key := some 1, name := "a", field := 13 } := by
  rintro (h | h)
  · cases h
  · exact h { key := some 1, name := "a", field := 10 } (by simp [sampleAdds]) ⟨rfl, rfl⟩

/-- **C58 (insertion order)**: if every addition names a new field of its container, and the additions to each
container are made in one go, the iteration is exactly the additions in order. -/
theorem C58_insertion_order_partial (gs : List (Option Int × Children)) (hk : (gs.map Prod.fst).Nodup)
    (hn : ∀ g ∈ gs, (g.2.map Prod.fst).Nodup ∧ g.2 ≠ []) :
    iterFields (run (gs.flatMap fun g => g.2.map fun f => { key := g.1, name := f.1, field := f.2 }))
      = gs.flatMap fun g => g.2.map fun f => (g.1, f.1, f.2) := by
  have one : ∀ (k : Option Int) (fs : Children) (st : Coll) (cs : Children),
      (fs.map Prod.fst).Nodup → (∀ n ∈ fs.map Prod.fst, n ∉ cs.map Prod.fst) → get? st k = some cs →
      (fs.map fun f => ({ key := k, name := f.1, field := f.2 } : Add)).foldl (fun st a => (addField st a).2) st
        = put st k (cs ++ fs) := by
    have putAppend : ∀ (cs : Children) (n : String) (f : Nat), n ∉ cs.map Prod.fst → put cs n f = cs ++ [(n, f)] := by
      intro cs n f
      induction cs with
      | nil => intro _; rfl
      | cons c cs ih =>
        intro h
        simp only [List.map_cons, List.mem_cons, not_or] at h
        simp only [put, if_neg (fun e : c.1 = n => h.1 e.symm), ih h.2, List.cons_append]
    have putPut : ∀ (st : Coll) (k : Option Int) (a b : Children), put (put st k a) k b = put st k b := by
      intro st k a b
      induction st with
      | nil => simp [put]
      | cons c st ih =>
        by_cases hc : c.1 = k
        · simp [put, hc]
        · simp [put, hc, ih]
    have putSame : ∀ (st : Coll) (k : Option Int) (a : Children), get? st k = some a → put st k a = st := by
      intro st k a
      induction st with
      | nil => intro h; simp [get?] at h
      | cons c st ih =>
        intro h
        by_cases hc : c.1 = k
        · simp only [get?, List.find?_cons, hc, decide_true, Option.map_some, Option.some.injEq] at h
          simp only [put, hc, if_true]
          rw [← h, ← hc]
        · simp only [get?, List.find?_cons, hc, decide_false] at h ih
          simp [put, hc, ih h]
    intro k fs
    induction fs with
    | nil => intro st cs _ _ hg; simp [putSame st k cs hg]
    | cons f fs ih =>
      intro st cs hnd hd hg
      simp only [List.map_cons, List.nodup_cons] at hnd
      have hf : f.1 ∉ cs.map Prod.fst := hd f.1 (by simp)
      have hadd : (addField st { key := k, name := f.1, field := f.2 }).2 = put st k (cs ++ [f]) := by
        rcases addField_cases st { key := k, name := f.1, field := f.2 } rfl with ⟨hr, _⟩ | ⟨_, e⟩
        · exfalso
          simp only [hg, Option.getD_some, get_some_iff] at hr
          exact hf hr.1
        · rw [e]
          simp only [hg, Option.getD_some, putAppend cs f.1 f.2 hf]
      rw [List.map_cons, List.foldl_cons, hadd,
        ih (put st k (cs ++ [f])) (cs ++ [f]) hnd.2 ?_ (by rw [get_put, if_pos rfl]), putPut]
      · simp
      · intro n hn' hc
        simp only [List.map_append, List.map_cons, List.map_nil, List.mem_append, List.mem_singleton] at hc
        rcases hc with hc | hc
        · exact hd n (by simp [hn']) hc
        · subst hc; exact hnd.1 hn'
  have putNew : ∀ (st : Coll) (k : Option Int) (v : Children), k ∉ st.map Prod.fst → put st k v = st ++ [(k, v)] := by
    intro st k v
    induction st with
    | nil => intro _; rfl
    | cons c st ih =>
      intro h
      simp only [List.map_cons, List.mem_cons, not_or] at h
      simp only [put, if_neg (fun e : c.1 = k => h.1 e.symm), ih h.2, List.cons_append]
  have putLast : ∀ (st : Coll) (k : Option Int) (u v : Children), k ∉ st.map Prod.fst →
      put (st ++ [(k, u)]) k v = st ++ [(k, v)] := by
    intro st k u v
    induction st with
    | nil => intro _; simp [put]
    | cons c st ih =>
      intro h
      simp only [List.map_cons, List.mem_cons, not_or] at h
      simp only [List.cons_append, put, if_neg (fun e : c.1 = k => h.1 e.symm), ih h.2]
  have all : ∀ (gs : List (Option Int × Children)) (st : Coll), (gs.map Prod.fst).Nodup →
      (∀ k ∈ gs.map Prod.fst, k ∉ st.map Prod.fst) → (∀ g ∈ gs, (g.2.map Prod.fst).Nodup ∧ g.2 ≠ []) →
      (gs.flatMap fun g => g.2.map fun f => ({ key := g.1, name := f.1, field := f.2 } : Add)).foldl
        (fun st a => (addField st a).2) st = st ++ gs := by
    intro gs
    induction gs with
    | nil => intro st _ _ _; simp
    | cons g gs ih =>
      intro st hnd hd hn
      simp only [List.map_cons, List.nodup_cons] at hnd
      obtain ⟨k, fs⟩ := g
      have hk' : k ∉ st.map Prod.fst := hd k (by simp)
      obtain ⟨hfn, hne⟩ := hn (k, fs) (by simp)
      have hfirst : (fs.map fun f => ({ key := k, name := f.1, field := f.2 } : Add)).foldl (fun st a => (addField st a).2) st
          = st ++ [(k, fs)] := by
        cases fs with
        | nil => exact absurd rfl hne
        | cons f fs =>
          have hgn : get? st k = none := by
            have := mt (get_some_iff st k).1 hk'
            simpa using this
          have hadd : (addField st { key := k, name := f.1, field := f.2 }).2 = st ++ [(k, [f])] := by
            rcases addField_cases st { key := k, name := f.1, field := f.2 } rfl with ⟨hr, _⟩ | ⟨_, e⟩
            · exfalso
              simp only [hgn, Option.getD_none] at hr
              simp [get?] at hr
            · rw [e]
              simp only [hgn, Option.getD_none, put]
              exact putNew st k _ hk'
          simp only [List.map_cons, List.nodup_cons] at hfn
          rw [List.map_cons, List.foldl_cons, hadd, one k fs _ [f] hfn.2 ?_ ?_, putLast _ _ _ _ hk']
          · rfl
          · intro n hn' hc
            simp only [List.map_cons, List.map_nil, List.mem_singleton] at hc
            subst hc; exact hfn.1 hn'
          · rw [← putNew st k [f] hk', get_put, if_pos rfl]
      rw [List.flatMap_cons, List.foldl_append, hfirst, ih _ hnd.2 ?_ (fun g hg => hn g (by simp [hg]))]
      · simp
      · intro j hj hc
        simp only [List.map_append, List.map_cons, List.map_nil, List.mem_append, List.mem_singleton] at hc
        rcases hc with hc | hc
        · exact hd j (by simp [hj]) hc
        · subst hc; exact hnd.1 hj
  have := all gs [] hk (by simp) hn
  simp only [List.nil_append] at this
  rw [run, this, iterFields]

example : iterFields (run ([(some 2, [("a", 1), ("b", 2)]), (some 1, [("a", 3)])].flatMap
    fun g : Option Int × Children => g.2.map fun f => { key := g.1, name := f.1, field := f.2 }))
    = [(some 2, "a", 1), (some 2, "b", 2), (some 1, "a", 3)] := by decide

/-- **C58 (counterexample)**: the iteration is not in insertion order when the additions alternate between
containers. -/
theorem C58_alternating_counterexample (x y z : Nat) :
    iterFields (run [{ key := some 1, name := "a", field := x }, { key := some 2, name := "a", field := y },
      { key := some 1, name := "b", field := z }])
    = [(some 1, "a", x), (some 1, "b", z), (some 2, "a", y)] := by rfl

/-- **C58 (counterexample)**: fields that the container object already holds are yielded as well although they were
never added, and they make an unforced addition of the same name fail. -/
theorem C58_held_counterexample (x y : Nat) :
    iterFields (run [{ key := some 1, held := [("old", x)], name := "a", field := y }]) = [(some 1, "old", x), (some 1, "a", y)]
    ∧ (addField [] { key := some 1, held := [("a", x)], name := "a", field := y }).1 = .error .valueError := by
  exact ⟨rfl, rfl⟩

/-- **C58 (lookup)**: after any history, asking for a field by name in a container with a geometry returns the field
last filed there; a container or name that was not used raises a `KeyError`. -/
theorem C58_lookup_partial (as : List Add) (h : ∀ a ∈ as, a.held = []) (k : Int) (n : String) :
    (∀ e, getElement (run as) (some n) (some k) = .ok e → ∃ f, e = .field f ∧ LastFiled as (some k) n f)
    ∧ ((∃ a ∈ as, a.key = some k ∧ a.name = n) → ∃ f, getElement (run as) (some n) (some k) = .ok (.field f))
    ∧ ((¬ ∃ a ∈ as, a.key = some k ∧ a.name = n) → getElement (run as) (some n) (some k) = .error .keyError) := by
  have hf := filed_run as h
  have hname := filed_name hf (some k) n
  have hge : getElement (run as) (some n) (some k)
      = match get? ((get? (run as) (some k)).getD []) n with | some f => .ok (.field f) | none => .error .keyError := by
    rw [getElement, pickContainer]
    cases hg : get? (run as) (some k) with
    | none => rfl
    | some cs =>
      simp only [Option.getD_some]
      cases get? cs n <;> rfl
  rw [hge]
  cases hg : get? ((get? (run as) (some k)).getD []) n with
  | some f =>
    rw [hg] at hname
    refine ⟨fun e he => ?_, fun _ => ⟨f, rfl⟩, fun hn => absurd (hname.1 rfl) hn⟩
    simp only [Except.ok.injEq] at he
    exact ⟨f, he.symm, hf.fields _ _ _ hg⟩
  | none =>
    rw [hg] at hname
    exact ⟨fun e he => by simp at he, fun hn => by simpa using hname.2 hn, fun _ => rfl⟩

example : getElement (run sampleAdds) (some "b") (some 1) = .ok (.field 12) := by decide

/-- **C58 (first field)**: after any history, asking a container with a geometry for a field without a name returns the field
filed under the name that was first added to it; without a container the one of the first addition is taken. -/
theorem C58_first_field_partial (as : List Add) (h : ∀ a ∈ as, a.held = []) :
    (∀ (k : Int) (a : Add) (rest : List Add), as.filter (fun b => b.key = some k) = a :: rest →
      ∃ f, getElement (run as) none (some k) = .ok (.field f) ∧ LastFiled as (some k) a.name f)
    ∧ ∀ (a : Add) (rest : List Add), as = a :: rest →
      ∃ f, getElement (run as) none none = .ok (.field f) ∧ LastFiled as a.key a.name f := by
  have hf := filed_run as h
  have hkey : ∀ (k : Option Int) (a : Add) (rest : List Add), as.filter (fun b => b.key = k) = a :: rest →
      ∃ f cs, get? (run as) k = some ((a.name, f) :: cs) ∧ LastFiled as k a.name f := by
    intro k a rest ha
    have hn := hf.names k
    rw [ha] at hn
    simp only [List.map_cons, firsts] at hn
    cases hg : get? (run as) k with
    | none => rw [hg] at hn; simp at hn
    | some cs =>
      rw [hg] at hn
      cases cs with
      | nil => simp at hn
      | cons e cs =>
        simp only [Option.getD_some, List.map_cons, List.cons.injEq] at hn
        refine ⟨e.2, cs, ?_, ?_⟩
        · rw [← hn.1]
        · apply hf.fields k a.name e.2
          rw [hg, ← hn.1]
          simp [get?]
  constructor
  · intro k a rest ha
    obtain ⟨f, cs, hg, hl⟩ := hkey (some k) a rest ha
    refine ⟨f, ?_, hl⟩
    simp only [getElement, pickContainer, hg]
  · intro a rest ha
    obtain ⟨f, cs, hg, hl⟩ := hkey a.key a (rest.filter fun b => b.key = a.key) (by rw [ha]; simp)
    refine ⟨f, ?_, hl⟩
    have hk := hf.keys
    rw [ha] at hk
    simp only [List.map_cons, firsts] at hk
    cases hr : run as with
    | nil => rw [ha] at hr; rw [hr] at hk; simp at hk
    | cons c st =>
      have hk2 : c.1 = a.key := by
        rw [ha] at hr; rw [hr] at hk
        simp only [List.map_cons, List.cons.injEq] at hk
        exact hk.1
      rw [hr] at hg
      simp only [get?, List.find?_cons, hk2, decide_true, Option.map_some, Option.some.injEq] at hg
      simp only [getElement, pickContainer, hg]

example : sampleAdds.filter (fun b => b.key = some 1) = ⟨some 1, [], "a", 10, false⟩ :: (sampleAdds.filter (fun b => b.key = some 1)).tail := rfl

/-- **C58 (counterexample)**: the container without geometry cannot be asked for: its identifier `None` means the
first container.  In an empty collection asking for anything raises an unrelated error, and without a field name an
empty container is returned in place of a field. -/
theorem C58_lookup_counterexample (x y : Nat) :
    getElement (run [{ key := some 1, name := "a", field := x }, { key := none, name := "a", field := y }]) (some "a") none
      = .ok (.field x)
    ∧ (∀ n, getElement [] n none = .error .unboundLocal)
    ∧ getElement [(some 1, [])] none (some 1) = .ok (.container (some 1)) :=
  ⟨rfl, fun _ => rfl, rfl⟩

end Ocgis.Props
