import Verif.Proofs.DatasetUid
/-!
# C115: Identifiers of the datasets of an operation
-/
namespace Ocgis.Props
open Spec Ocgis.DatasetUid Proofs.DatasetUid

/-! Datasets for the examples: two request datasets, a field and a dictionary with identifier 7. -/
private def noIds : Uids := fun _ => none
private def tasSet : Item := ⟨.object (.request 0), ["tas"]⟩
private def pr : Item := ⟨.object (.request 1), ["pr", "prc"]⟩
private def orog : Item := ⟨.object (.field 0), ["orog"]⟩
private def seven : Item := ⟨.options (some 7), ["huss"]⟩
private def one : Item := ⟨.options (some 1), ["huss"]⟩

/-- Each dataset has the identifier it came with, or its position if it came with none. Missing: a request dataset must not be there twice
(`C115_twice_never`). -/
theorem C115_identifiers_partial (u : Uids) (xs : List Item) (h : RequestsDiffer xs) : ComesWithOrPosition u xs (identifiers u xs).1 := by
  refine ⟨walk_length .., ?_⟩
  intro i x n hx hn
  obtain ⟨v, h1, -, h3, -, -⟩ := walk_at xs u 1 i x hx
  have hv : given v x.source = given u x.source := by
    cases hs : x.source with
    | options j => rfl
    | object o =>
      simp only [given]
      apply h3
      rintro k rfl j y hj hy hys
      have := h i j x y k hx hy hs hys
      omega
  simp only [identifiers] at hn
  rw [hn] at h1
  cases h1
  unfold step
  rw [hv]
  cases given u x.source with
  | some j => rfl
  | none => simp [Nat.add_comm]

example : RequestsDiffer [tasSet, seven, orog, pr] ∧ (identifiers noIds [tasSet, seven, orog, pr]).1 = [1, 7, 3, 4] := by
  refine ⟨?_, by decide +kernel⟩
  intro i j x y n hx hy hxs hys
  rcases i with _ | _ | _ | _ | i <;> rcases j with _ | _ | _ | _ | j <;>
    simp only [List.getElem?_cons_zero, List.getElem?_cons_succ, List.getElem?_nil, Option.some.injEq, reduceCtorEq] at hx hy <;>
    subst hx <;> subst hy <;> simp [tasSet, pr, seven, orog] at hxs hys ⊢ <;> omega

/-- A dataset that comes with an identifier keeps it, whatever the others are. -/
theorem C115_given (u : Uids) (xs : List Item) (i : Nat) (x : Item) (n : Int) (hx : xs[i]? = some x) (hn : given u x.source = some n) :
    (identifiers u xs).1[i]? = some n := by
  obtain ⟨v, h1, h2, -, -, -⟩ := walk_at xs u 1 i x hx
  have hv : given v x.source = some n := by
    cases hs : x.source with
    | options j => rw [hs] at hn; exact hn
    | object o => rw [hs] at hn; exact h2 o n hn
  simp only [identifiers, h1, step, hv]

example : given noIds seven.source = some 7 := rfl

/-- Identifiers differ from each other if those that were given differ from each other and from the positions of the others, and no request
dataset is there twice. -/
theorem C115_unique_partial (u : Uids) (xs : List Item) (h : RequestsDiffer xs) (hc : NoClash u xs) : (identifiers u xs).1.Nodup := by
  obtain ⟨hl, hp⟩ := C115_identifiers_partial u xs h
  rw [List.nodup_iff_pairwise_ne, List.pairwise_iff_getElem]
  intro i j hi hj hij he
  have hi' : i < xs.length := hl ▸ hi
  have hj' : j < xs.length := hl ▸ hj
  have e1 := hp i _ _ (List.getElem?_eq_getElem hi') (List.getElem?_eq_getElem hi)
  have e2 := hp j _ _ (List.getElem?_eq_getElem hj') (List.getElem?_eq_getElem hj)
  rw [he] at e1
  rw [e1] at e2
  cases g1 : given u (xs[i]).source with
  | none =>
    cases g2 : given u (xs[j]).source with
    | none => rw [g1, g2] at e2; simp only [Option.getD_none] at e2; omega
    | some m =>
      rw [g1, g2] at e2
      exact hc.2 j i _ _ m (List.getElem?_eq_getElem hj') (List.getElem?_eq_getElem hi') g2 g1 e2.symm
  | some n =>
    cases g2 : given u (xs[j]).source with
    | none =>
      rw [g1, g2] at e2
      exact hc.2 i j _ _ n (List.getElem?_eq_getElem hi') (List.getElem?_eq_getElem hj') g1 g2 e2
    | some m =>
      rw [g1, g2] at e2
      simp only [Option.getD_some] at e2
      subst e2
      have := hc.1 i j _ _ n (List.getElem?_eq_getElem hi') (List.getElem?_eq_getElem hj') g1 g2
      omega

/-- Without any given identifiers there is no clash, and the identifiers are one, two, three and so on. -/
theorem C115_counted_partial (u : Uids) (xs : List Item) (h : RequestsDiffer xs) (hn : ∀ x ∈ xs, given u x.source = none) :
    NoClash u xs ∧ (identifiers u xs).1 = (List.range xs.length).map fun i => ((i + 1 : Nat) : Int) := by
  constructor
  · constructor
    · intro i j x y n hx _ hg _
      rw [hn x (List.mem_of_getElem? hx)] at hg
      cases hg
    · intro i j x y n hx _ hg _
      rw [hn x (List.mem_of_getElem? hx)] at hg
      cases hg
  · obtain ⟨hl, hp⟩ := C115_identifiers_partial u xs h
    apply List.ext_getElem?
    intro i
    by_cases hi : i < xs.length
    · have hi' : i < (identifiers u xs).1.length := hl ▸ hi
      have e := hp i _ _ (List.getElem?_eq_getElem hi) (List.getElem?_eq_getElem hi')
      rw [hn _ (List.getElem_mem hi)] at e
      rw [List.getElem?_eq_getElem hi', e]
      simp [hi]
    · rw [List.getElem?_eq_none (by rw [hl]; omega)]
      simp [hi]

example : ∀ x ∈ [tasSet, pr], given noIds x.source = none := by decide +kernel

/-- A given identifier that is the position of a dataset without one is there twice, and nothing is raised. -/
theorem C115_clash_never (u : Uids) (xs : List Item) (h : RequestsDiffer xs) (i j : Nat) (x y : Item) (hx : xs[i]? = some x)
    (hy : xs[j]? = some y) (hxn : given u x.source = some ((j + 1 : Nat) : Int)) (hyn : given u y.source = none) :
    ¬ (identifiers u xs).1.Nodup := by
  obtain ⟨hl, hp⟩ := C115_identifiers_partial u xs h
  have hi : i < (identifiers u xs).1.length := hl ▸ (List.getElem?_eq_some_iff.1 hx).1
  have hj : j < (identifiers u xs).1.length := hl ▸ (List.getElem?_eq_some_iff.1 hy).1
  have e1 := hp i _ _ hx (List.getElem?_eq_getElem hi)
  have e2 := hp j _ _ hy (List.getElem?_eq_getElem hj)
  rw [hxn] at e1
  rw [hyn] at e2
  intro hnd
  have := (List.getElem_inj (h₀ := hi) (h₁ := hj) hnd).1 (e1.trans e2.symm)
  subst this
  rw [hx] at hy
  cases hy
  rw [hxn] at hyn
  cases hyn

example : (identifiers noIds [tasSet, one]).1 = [1, 1] := by decide +kernel

/-- A request dataset that is there twice has the same identifier both times, whether or not it came with one. -/
theorem C115_twice_never (u : Uids) (xs : List Item) (i j : Nat) (x y : Item) (k : Nat) (hij : i < j) (hx : xs[i]? = some x)
    (hy : xs[j]? = some y) (hxk : x.source = .object (.request k)) (hyk : y.source = .object (.request k)) :
    ∃ n, (identifiers u xs).1[i]? = some n ∧ (identifiers u xs).1[j]? = some n := by
  have hi : i < (identifiers u xs).1.length := by
    rw [identifiers, walk_length]
    exact (List.getElem?_eq_some_iff.1 hx).1
  obtain ⟨v, h1, -, -, -, h5⟩ := walk_at xs u 1 j y hy
  have hv := h5 i x k _ hij hx hxk (List.getElem?_eq_getElem hi)
  refine ⟨_, List.getElem?_eq_getElem hi, ?_⟩
  have e : (identifiers u xs).1[j]? = some (step v (1 + j) y.source).1 := h1
  rw [e, hyk]
  simp only [step, given, hv]

example : (identifiers noIds [tasSet, pr, tasSet]).1 = [1, 2, 1] := by decide +kernel

/-- A field that is there twice without an identifier has two different ones. -/
theorem C115_field_twice (u : Uids) (xs : List Item) (h : RequestsDiffer xs) (i j : Nat) (x y : Item) (k : Nat) (hij : i ≠ j)
    (hx : xs[i]? = some x) (hy : xs[j]? = some y) (hxk : x.source = .object (.field k)) (hyk : y.source = .object (.field k))
    (hu : u (.field k) = none) :
    (identifiers u xs).1[i]? = some ((i + 1 : Nat) : Int) ∧ (identifiers u xs).1[j]? = some ((j + 1 : Nat) : Int) ∧
      ((i + 1 : Nat) : Int) ≠ ((j + 1 : Nat) : Int) := by
  obtain ⟨hl, hp⟩ := C115_identifiers_partial u xs h
  have hi : i < (identifiers u xs).1.length := hl ▸ (List.getElem?_eq_some_iff.1 hx).1
  have hj : j < (identifiers u xs).1.length := hl ▸ (List.getElem?_eq_some_iff.1 hy).1
  have e1 := hp i _ _ hx (List.getElem?_eq_getElem hi)
  have e2 := hp j _ _ hy (List.getElem?_eq_getElem hj)
  rw [hxk] at e1
  rw [hyk] at e2
  simp only [given, hu, Option.getD_none] at e1 e2
  exact ⟨by rw [List.getElem?_eq_getElem hi, e1], by rw [List.getElem?_eq_getElem hj, e2], by omega⟩

example : (identifiers noIds [orog, orog]).1 = [1, 2] := by decide +kernel

/-- Going through the datasets changes the caller's request datasets: whatever identifier one is shown with, the caller's object has it from
then on. -/
theorem C115_changed_never (u : Uids) (xs : List Item) (i : Nat) (x : Item) (k : Nat) (n : Int) (hx : xs[i]? = some x)
    (hk : x.source = .object (.request k)) (hn : (identifiers u xs).1[i]? = some n) : (identifiers u xs).2 (.request k) = some n := by
  obtain ⟨v, h1, -, -, h4, -⟩ := walk_at xs u 1 i x hx
  apply h4
  rw [identifiers, h1] at hn
  simp only [Option.some.injEq] at hn
  rw [← hn, hk]
  exact step_request v _ k

/-- Fields of the caller are not changed, nor are request datasets that are not among the datasets, nor identifiers that were there. -/
theorem C115_unchanged_partial (u : Uids) (xs : List Item) :
    (∀ k, (identifiers u xs).2 (.field k) = u (.field k)) ∧
    (∀ k, (∀ x ∈ xs, x.source ≠ .object (.request k)) → (identifiers u xs).2 (.request k) = u (.request k)) ∧
    ∀ o n, u o = some n → (identifiers u xs).2 o = some n := by
  refine ⟨?_, ?_, ?_⟩
  · intro k
    exact walk_other xs u 1 _ (by intro k' h; cases h)
  · intro k hk
    refine walk_other xs u 1 _ ?_
    intro k' h
    cases h
    exact hk
  · intro o n h
    exact walk_keeps xs u 1 h

example : (identifiers noIds [pr, orog]).2 (.request 1) = some 1 ∧ (identifiers noIds [pr, orog]).2 (.field 0) = none ∧
    (identifiers noIds [pr, orog]).2 (.request 0) = none := by decide +kernel

/-- Going through the datasets again, as is done for each output, gives the same identifiers and changes nothing more. -/
theorem C115_again (u : Uids) (xs : List Item) :
    identifiers (identifiers u xs).2 xs = ((identifiers u xs).1, (identifiers u xs).2) :=
  walk_again xs u _ 1 (fun _ _ h => h) fun k => walk_other xs u 1 _ (by intro k' h; cases h)

/-- A second operation: a request dataset keeps the identifier, that is the position, it got in the first one. If there is another dataset without
one at that position in the second operation, both have the same identifier. -/
theorem C115_reused_never (u : Uids) (xs ys : List Item) (hxs : RequestsDiffer xs) (hys : RequestsDiffer ys) (i j : Nat) (x y z : Item) (k : Nat)
    (hx : xs[i]? = some x) (hxk : x.source = .object (.request k)) (hu : u (.request k) = none)
    (hy : ys[j]? = some y) (hyk : y.source = .object (.request k)) (hz : ys[i]? = some z) (hzn : given (identifiers u xs).2 z.source = none) :
    (identifiers (identifiers u xs).2 ys).1[j]? = some ((i + 1 : Nat) : Int) ∧ ¬ (identifiers (identifiers u xs).2 ys).1.Nodup := by
  obtain ⟨hl, hp⟩ := C115_identifiers_partial u xs hxs
  have hi : i < (identifiers u xs).1.length := hl ▸ (List.getElem?_eq_some_iff.1 hx).1
  have e1 := hp i _ _ hx (List.getElem?_eq_getElem hi)
  rw [hxk] at e1
  simp only [given, hu, Option.getD_none] at e1
  have hk := C115_changed_never u xs i x k _ hx hxk (List.getElem?_eq_getElem hi)
  rw [e1] at hk
  have hg : given (identifiers u xs).2 y.source = some ((i + 1 : Nat) : Int) := by rw [hyk]; exact hk
  exact ⟨C115_given _ ys j y _ hy hg, C115_clash_never _ ys hys j i y z hy hz hg hzn⟩

example : (identifiers (identifiers noIds [tasSet]).2 [pr, tasSet]).1 = [1, 1] ∧ (identifiers noIds [pr, tasSet]).1 = [1, 2] := by decide +kernel

/-- The file of identifiers: an identifier and a variable are a row exactly if a dataset with that identifier has that data variable. -/
theorem C115_file (u : Uids) (xs : List Item) (n : Int) (name : String) :
    (n, name) ∈ fileRows u xs ↔ ∃ (i : Nat) (x : Item), xs[i]? = some x ∧ (identifiers u xs).1[i]? = some n ∧ name ∈ x.names := by
  simp only [fileRows, List.mem_flatMap, List.mem_map, Prod.mk.injEq]
  constructor
  · rintro ⟨p, hp, m, hm, rfl, rfl⟩
    obtain ⟨i, hi⟩ := List.getElem?_of_mem hp
    rw [List.getElem?_zip_eq_some] at hi
    exact ⟨i, p.2, hi.2, hi.1, hm⟩
  · rintro ⟨i, x, hx, hn, hm⟩
    exact ⟨(n, x), List.mem_of_getElem? (List.getElem?_zip_eq_some.2 ⟨hn, hx⟩), name, hm, rfl, rfl⟩

/-- If identifiers differ, the rows of the file with the identifier of a dataset are the data variables of that dataset in their order. -/
theorem C115_file_rows_partial (u : Uids) (xs : List Item) (hnd : (identifiers u xs).1.Nodup) (i : Nat) (x : Item) (n : Int)
    (hx : xs[i]? = some x) (hn : (identifiers u xs).1[i]? = some n) :
    ((fileRows u xs).filter fun r => r.1 == n).map (·.2) = x.names := by
  have key : ∀ (ids : List Int) (ys : List Item) (i : Nat), ids.length = ys.length → ids.Nodup → ys[i]? = some x → ids[i]? = some n →
      (((ids.zip ys).flatMap fun p => p.2.names.map fun m => (p.1, m)).filter fun r => r.1 == n).map (·.2) = x.names := by
    intro ids
    induction ids with
    | nil => intro ys i _ _ _ h; simp at h
    | cons a ids ih =>
      intro ys i hl hnd hx hn
      cases ys with
      | nil => simp at hl
      | cons y ys =>
        simp only [List.length_cons, Nat.add_right_cancel_iff] at hl
        rw [List.nodup_cons] at hnd
        simp only [List.zip_cons_cons, List.flatMap_cons, List.filter_append, List.map_append]
        cases i with
        | zero =>
          simp only [List.getElem?_cons_zero, Option.some.injEq] at hx hn
          subst hx; subst hn
          have hrest : ((ids.zip ys).flatMap fun p => p.2.names.map fun m => (p.1, m)).filter (fun r => r.1 == a) = [] := by
            rw [List.filter_eq_nil_iff]
            intro r hr
            simp only [List.mem_flatMap, List.mem_map] at hr
            obtain ⟨p, hp, m, -, rfl⟩ := hr
            have := (List.of_mem_zip hp).1
            simp only [beq_iff_eq]
            rintro rfl
            exact hnd.1 this
          rw [hrest]
          simp only [List.map_nil, List.append_nil]
          rw [List.filter_eq_self.2 (by simp)]
          simp [Function.comp_def]
        | succ i =>
          simp only [List.getElem?_cons_succ] at hx hn
          have hne : a ≠ n := by
            rintro rfl
            exact hnd.1 (List.mem_of_getElem? hn)
          rw [List.filter_eq_nil_iff.2 (by simp [hne])]
          simpa using ih ys i hl hnd.2 hx hn
  exact key _ xs i (by rw [identifiers, walk_length]) hnd hx hn

example : fileRows noIds [tasSet, pr] = [(1, "tas"), (2, "pr"), (2, "prc")] ∧ (identifiers noIds [tasSet, pr]).1.Nodup := by decide +kernel

example : ((fileRows noIds [pr, tasSet, pr]).filter fun r => r.1 == 1).map (·.2) = ["pr", "prc", "pr", "prc"] := by decide +kernel

end Ocgis.Props
