import Verif.Proofs.DictSlice
/-!
# C38: slicing by dimension names
-/
namespace Ocgis.Props
open Ocgis.DictSlice Ocgis.Spec

/-- C38 (indices the library treats like numpy, and at most one index array for the dimensions of any one variable): slicing a
collection by a dictionary of dimension names succeeds. There are positions to keep for each dimension, those the index given for
it selects, or all of them if none is given; each dimension becomes as long as their number, and every variable is restricted to
these same positions along each of its dimensions, whatever their order. -/
theorem C38_collection_partial {α : Type} (c : Coll α) (d : Assoc RawIndex)
    (hdk : (d.map (·.1)).Nodup) (hck : (c.dims.map (·.1)).Nodup) (hne : c.dims ≠ [])
    (hlen : ∀ n D, (n, D) ∈ c.dims → 0 ≤ D.len)
    (hd : ∀ n s, (n, s) ∈ d → ∃ D, (n, D) ∈ c.dims ∧ Aligned D ∧ 0 < D.len ∧ Supported D.len.toNat s)
    (hv : ∀ k v, (k, v) ∈ c.vars → v.names.length = v.shape.length ∧
      ∀ (i : Nat) n, v.names[i]? = some n → ∃ D, (n, D) ∈ c.dims ∧ D.len = v.shape.getD i 0)
    (hone : ∀ k v, (k, v) ∈ c.vars → ∀ (i j : Nat) n m s t, v.names[i]? = some n → v.names[j]? = some m →
      (n, s) ∈ d → (m, t) ∈ d → UsesArray s → UsesArray t → i = j) :
    ∃ (c' : Coll α) (kept : Kept), sliceColl c d = .ok c' ∧
      (∀ n D, (n, D) ∈ c.dims → (∀ s, (n, s) ∈ d → pick s (List.range D.len.toNat) = .ok (kept n)) ∧
        ((∀ s, (n, s) ∉ d) → kept n = List.range D.len.toNat)) ∧
      c'.dims.map (·.1) = c.dims.map (·.1) ∧ (∀ n D', (n, D') ∈ c'.dims → D'.len = (kept n).length) ∧
      c'.vars.map (·.1) = c.vars.map (·.1) ∧
      ∀ (i : Nat) k v v', c.vars[i]? = some (k, v) → c'.vars[i]? = some (k, v') → Restricts kept v v' := by
  let raw : String → RawIndex := fun n => (find d n).getD (.slice PySlice.all)
  let kept : Kept := fun n => match find c.dims n with
    | none => []
    | some D => match pick (raw n) (List.range D.len.toNat) with
      | .ok p => p
      | .error _ => []
  let fmt : String → Index := fun n => match formatSlice (raw n) with
    | .ok f => f
    | .error _ => .slice PySlice.all
  have hraw : ∀ n s, (n, s) ∈ d → raw n = s := by
    intro n s h; simp only [raw, find_of_mem d hdk h, Option.getD_some]
  have hraw0 : ∀ n, (∀ s, (n, s) ∉ d) → raw n = .slice PySlice.all := by
    intro n h
    have : find d n = none := by
      cases hf : find d n with
      | none => rfl
      | some s => exact absurd (mem_of_find d hf) (h s)
    simp only [raw, this, Option.getD_none]
  have hsup : ∀ n D, (n, D) ∈ c.dims → Supported D.len.toNat (raw n) := by
    intro n D hD
    by_cases h : ∃ s, (n, s) ∈ d
    · obtain ⟨s, hs⟩ := h
      obtain ⟨D', h1, -, -, h4⟩ := hd n s hs
      have := (find_of_mem c.dims hck h1).symm.trans (find_of_mem c.dims hck hD)
      injection this with this
      subst this
      rw [hraw n s hs]; exact h4
    · rw [hraw0 n (fun s hs => h ⟨s, hs⟩)]
      exact .inl rfl
  have hfmt : ∀ n D, (n, D) ∈ c.dims → formatSlice (raw n) = .ok (fmt n) ∧
      positions D.len.toNat (fmt n) = .ok (kept n) ∧ pick (raw n) (List.range D.len.toNat) = .ok (kept n) := by
    intro n D hD
    obtain ⟨f, h1, h2⟩ := supported_format (List.range D.len.toNat) (raw n) (by simpa using hsup n D hD)
    have hok : ∃ p, pick (raw n) (List.range D.len.toNat) = .ok p := by
      by_cases hpos : 0 < D.len
      · -- the selection succeeds because the index is supported
        have := hsup n D hD
        cases hr : raw n with
        | none => exact ⟨_, rfl⟩
        | slice s => exact ⟨_, rfl⟩
        | int i =>
          rw [hr] at this
          exact ⟨_, takeInts_ok _ _ (by intro j hj; simp at hj; subst hj; have := this; simp only [Supported] at this; simpa using this)⟩
        | ints is =>
          rw [hr] at this
          exact ⟨_, takeInts_ok _ _ (by intro j hj; have := this.1 j hj; simpa using this)⟩
        | bools bs =>
          rw [hr] at this
          simp only [Supported] at this
          exact ⟨_, by simp only [pick]; rw [if_neg (by simp [this])]⟩
      · have := hsup n D hD
        have h0 := hlen n D hD
        have hz : D.len.toNat = 0 := by omega
        cases hr : raw n with
        | none => exact ⟨_, rfl⟩
        | slice s => exact ⟨_, rfl⟩
        | int i => rw [hr, hz] at this; simp only [Supported] at this; omega
        | ints is =>
          rw [hr] at this
          exact ⟨_, takeInts_ok _ _ (by intro j hj; have := this.1 j hj; simpa using this)⟩
        | bools bs =>
          rw [hr] at this
          simp only [Supported] at this
          exact ⟨_, by simp only [pick]; rw [if_neg (by simp [this])]⟩
    obtain ⟨p, hp⟩ := hok
    have hk : kept n = p := by simp only [kept, find_of_mem c.dims hck hD, hp]
    have hf : fmt n = f := by simp only [fmt, h1]
    refine ⟨by rw [hf]; exact h1, ?_, by rw [hk]; exact hp⟩
    rw [positions_eq, hf, h2, hk]; exact hp
  obtain ⟨dims, d1, d2, d3⟩ := sliceDims_spec c.dims hck (fun n D' => D'.len = (kept n).length) d hdk (by
    intro n s hs
    obtain ⟨D, h1, h2, h3, h4⟩ := hd n s hs
    obtain ⟨r, g1, g2⟩ := getitem_supported D s h2 h3 h4
    refine ⟨D, r, h1, g1, ?_⟩
    obtain ⟨zs, z1, z2⟩ := g2.lens (List.range D.len.toNat) (by simp; omega)
    have := (hfmt n D h1).2.2
    rw [hraw n s hs, z1] at this
    injection this with this
    rw [← this]
    exact z2.symm) c.dims
  obtain ⟨vars, v1, v2, v3⟩ := sliceVars_spec d (Restricts kept) c.vars (by
    intro k v hkv
    obtain ⟨hl, hvd⟩ := hv k v hkv
    have hall : ∀ (i : Nat) n, v.names[i]? = some n → formatSlice (raw n) = .ok (fmt n) ∧
        positions (v.shape.getD i 0) (fmt n) = .ok (kept n) := by
      intro i n hi
      obtain ⟨D, hD, hDl⟩ := hvd i n hi
      obtain ⟨a, b, -⟩ := hfmt n D hD
      refine ⟨a, ?_⟩
      have : v.shape.getD i 0 = D.len.toNat := by omega
      rw [this]; exact b
    have hcount : ((v.names.map fmt).filter fancy).length ≤ 1 := by
      apply filter_le_one
      intro i j a b hi hj ha hb
      rw [List.getElem?_map] at hi hj
      cases hni : v.names[i]? with
      | none => rw [hni] at hi; cases hi
      | some n =>
        cases hnj : v.names[j]? with
        | none => rw [hnj] at hj; cases hj
        | some m =>
          rw [hni] at hi; rw [hnj] at hj
          simp only [Option.map_some, Option.some.injEq] at hi hj
          have ua := fancy_format (raw n) _ (hall i n hni).1 (by rw [hi]; exact ha)
          have ub := fancy_format (raw m) _ (hall j m hnj).1 (by rw [hj]; exact hb)
          have hin : ∀ x, UsesArray (raw x) → ∃ s, (x, s) ∈ d ∧ UsesArray s := by
            intro x hx
            by_cases h : ∃ s, (x, s) ∈ d
            · obtain ⟨s, hs⟩ := h
              exact ⟨s, hs, by rw [← hraw x s hs]; exact hx⟩
            · rw [hraw0 x (fun s hs => h ⟨s, hs⟩)] at hx
              cases hx
          obtain ⟨s, s1, s2⟩ := hin n ua
          obtain ⟨t, t1, t2⟩ := hin m ub
          exact hone k v hkv i j n m s t hni hnj s1 t1 s2 t2
    obtain ⟨v', w1, w2⟩ := sliceVar_restricts kept raw fmt v hl (by
      intro n hn
      obtain ⟨i, hi⟩ := List.mem_iff_getElem?.1 hn
      exact (hall i n hi).1) (fun i n hi => (hall i n hi).2) hcount
    unfold dictSliceVar
    split
    · exact ⟨v', w1, w2⟩
    · rename_i hno
      refine ⟨v, rfl, ?_⟩
      -- nothing is sliced: everything is kept
      have hall' : ∀ n ∈ v.names, raw n = .slice PySlice.all := by
        intro n hn
        apply hraw0
        intro s hs
        apply hno
        rw [List.any_eq_true]
        exact ⟨n, hn, by rw [find_of_mem d hdk hs]; rfl⟩
      have hkept : ∀ (i : Nat) n, v.names[i]? = some n → kept n = List.range (v.shape.getD i 0) := by
        intro i n hi
        obtain ⟨D, hD, hDl⟩ := hvd i n hi
        have := (hfmt n D hD).2.2
        rw [hall' n (List.mem_of_getElem? hi)] at this
        simp only [pick] at this
        rw [PySlice.get_all] at this
        injection this with this
        rw [← this]
        congr 1
        omega
      have hshape : v.shape = v.names.map fun n => (kept n).length := by
        apply List.ext_getElem?
        intro i
        rw [List.getElem?_map]
        by_cases hi : i < v.names.length
        · have e := List.getElem?_eq_getElem hi
          rw [e]
          simp only [Option.map_some]
          rw [hkept i _ e, List.length_range, List.getD_eq_getElem?_getD, List.getElem?_eq_getElem (by omega)]
          rfl
        · rw [List.getElem?_eq_none (by omega), List.getElem?_eq_none (by omega)]
          rfl
      have hor : ∀ idx : List Nat, (∀ (k i : Nat), idx[k]? = some i → i < v.shape.getD k 0) → idx.length = v.shape.length →
          original kept v.names idx = idx := by
        intro idx hidx hlen
        apply List.ext_getElem?
        intro i
        unfold original
        rw [List.getElem?_zipWith]
        by_cases hi : i < v.names.length
        · have e := List.getElem?_eq_getElem hi
          have e2 := List.getElem?_eq_getElem (by omega : i < idx.length)
          rw [e, e2]
          simp only
          rw [hkept i _ e, List.getD_eq_getElem?_getD, List.getElem?_range (hidx i _ e2)]
          rfl
        · rw [List.getElem?_eq_none (by omega), List.getElem?_eq_none (by omega)]
      exact ⟨rfl, hshape, fun idx h1 h2 => by rw [hor idx h1 h2], Iff.rfl, fun m m' h h' idx h1 h2 => by
        rw [h] at h'; injection h' with h'; subst h'; rw [hor idx h1 h2]⟩)
  refine ⟨⟨dims, vars⟩, kept, ?_, ?_, d2, ?_, v2, v3⟩
  · unfold sliceColl
    rw [if_neg hne, d1]
    simp only [v1]
  · intro n D hD
    refine ⟨?_, ?_⟩
    · intro s hs
      have := (hfmt n D hD).2.2
      rw [hraw n s hs] at this
      exact this
    · intro h
      have := (hfmt n D hD).2.2
      rw [hraw0 n h] at this
      simp only [pick] at this
      rw [PySlice.get_all] at this
      injection this with this
      exact this.symm
  · intro n D' hD'
    rcases d3 n D' hD' with ⟨-, h⟩ | ⟨h1, h2⟩
    · exact h
    · have := (hfmt n D' h2).2.2
      rw [hraw0 n (fun s hs => h1 (List.mem_map.2 ⟨(n, s), hs, rfl⟩))] at this
      simp only [pick] at this
      rw [PySlice.get_all] at this
      injection this with this
      rw [← this, List.length_range]
      have := hlen n D' h2
      omega

/-- A collection with a variable over (time, x) and one over (x). -/
def demoColl : Coll Nat :=
  ⟨[("time", ⟨"time", some 3, some 3, false, false, none, none, none⟩), ("x", ⟨"x", some 4, some 4, false, false, none, none, none⟩)],
   [("tas", { names := ["time", "x"], shape := [3, 4], value := fun i => 10 * i.getD 0 0 + i.getD 1 0 }),
    ("lon", { names := ["x"], shape := [4], value := fun i => i.getD 0 0, mask := some fun i => i == [3] })]⟩

def demoDict : Assoc RawIndex := [("x", .ints [0, 3]), ("time", .slice ⟨some 1, some 3⟩)]

example : ∃ c', sliceColl demoColl demoDict = .ok c' ∧ c'.dims.map (fun d => (d.1, d.2.len)) = [("time", 2), ("x", 2)] ∧
    (c'.vars.map fun v => (v.1, v.2.shape)) = [("tas", [2, 2]), ("lon", [2])] ∧
    ((c'.vars[0]?).map fun v => (v.2.value [0, 1], v.2.value [1, 0])) = some (13, 20) ∧
    ((c'.vars[1]?).map fun v => (v.2.value [1], v.2.mask.map fun m => (m [0], m [1]))) = some (3, some (false, true)) :=
  ⟨_, rfl, by decide, by decide, by decide, by decide⟩

example : ∀ n s, (n, s) ∈ demoDict → ∃ D, (n, D) ∈ demoColl.dims ∧ Aligned D ∧ 0 < D.len ∧ Supported D.len.toNat s := by
  intro n s h
  simp only [demoDict, List.mem_cons, Prod.mk.injEq, List.not_mem_nil, or_false] at h
  rcases h with ⟨rfl, rfl⟩ | ⟨rfl, rfl⟩
  · exact ⟨⟨"x", some 4, some 4, false, false, none, none, none⟩, by simp [demoColl], trivial, by decide, by decide, .inl ⟨[], 0, 3, [], rfl, by decide⟩⟩
  · exact ⟨⟨"time", some 3, some 3, false, false, none, none, none⟩, by simp [demoColl], trivial, by decide, .inr ⟨1, 3, rfl, by decide, by decide, by decide⟩⟩

/-- C38: the dictionary made of a slice by position gives each dimension the slice at its position, and no other dimension one. -/
theorem C38_dictionary_of_slice (names : List String) (slc : List RawIndex) (hnd : names.Nodup) (hl : names.length = slc.length) :
    (∀ (i : Nat) n, names[i]? = some n → find (dslice names slc) n = slc[i]?) ∧
    ∀ n, n ∉ names → find (dslice names slc) n = none := by
  have hkeys : (dslice names slc).map (·.1) = names := by
    unfold dslice
    rw [List.map_fst_zip (by omega)]
  constructor
  · intro i n hi
    have hlt : i < slc.length := by
      have := (List.getElem?_eq_some_iff.1 hi).1
      omega
    rw [List.getElem?_eq_getElem hlt]
    apply find_of_mem
    · rw [hkeys]; exact hnd
    · refine List.mem_of_getElem? (i := i) ?_
      unfold dslice
      rw [List.getElem?_zip_eq_some]
      exact ⟨hi, List.getElem?_eq_getElem hlt⟩
  · intro n hn
    cases hf : find (dslice names slc) n with
    | none => rfl
    | some s =>
      refine absurd ?_ hn
      rw [← hkeys]
      exact List.mem_map.2 ⟨_, mem_of_find _ hf, rfl⟩

example : find (dslice ["y", "x"] [.ints [2], .slice ⟨some 0, some 3⟩]) "x" = some (.slice ⟨some 0, some 3⟩) := by decide

/-- C38: an unknown dimension name is refused. -/
theorem C38_unknown_dimension {α : Type} (c : Coll α) (n : String) (s : RawIndex) (rest : Assoc RawIndex) (hne : c.dims ≠ [])
    (h : n ∉ c.dims.map (·.1)) : sliceColl c ((n, s) :: rest) = .error .keyError := by
  have : find c.dims n = none := by
    cases hf : find c.dims n with
    | none => rfl
    | some D => exact absurd (List.mem_map.2 ⟨_, mem_of_find c.dims hf, rfl⟩) h
  unfold sliceColl
  rw [if_neg hne, sliceDims, this]

/-- C38 is false with index arrays for two dimensions of a variable: the dimensions become two by two, the variable has two
elements. -/
theorem C38_two_arrays_counterexample : ∃ (c c' : Coll Nat) (d : Assoc RawIndex), sliceColl c d = .ok c' ∧
    (∀ n s, (n, s) ∈ d → ∃ D, (n, D) ∈ c.dims ∧ Aligned D ∧ 0 < D.len ∧ Supported D.len.toNat s) ∧
    c'.dims.map (fun d => (d.1, d.2.len)) = [("y", 2), ("x", 2)] ∧ (c'.vars.map fun v => (v.2.names, v.2.shape)) = [(["y", "x"], [2])] := by
  refine ⟨⟨[("y", ⟨"y", some 3, some 3, false, false, none, none, none⟩), ("x", ⟨"x", some 3, some 3, false, false, none, none, none⟩)],
    [("tas", { names := ["y", "x"], shape := [3, 3], value := fun _ => 0 })]⟩, _, [("y", .ints [0, 2]), ("x", .ints [0, 2])], rfl, ?_, by decide, by decide⟩
  intro n s h
  simp only [List.mem_cons, Prod.mk.injEq, List.not_mem_nil, or_false] at h
  rcases h with ⟨rfl, rfl⟩ | ⟨rfl, rfl⟩
  · exact ⟨⟨"y", some 3, some 3, false, false, none, none, none⟩, by simp, trivial, by decide, by decide, .inl ⟨[], 0, 2, [], rfl, by decide⟩⟩
  · exact ⟨⟨"x", some 3, some 3, false, false, none, none, none⟩, by simp, trivial, by decide, by decide, .inl ⟨[], 0, 2, [], rfl, by decide⟩⟩

/-- C38: a slice given for one order of dimensions and carried over to another names the same dimensions, and takes those that are
not in the first whole. -/
theorem C38_mapped_slice (slc : List Index) (src dst : List String) (hnd : src.Nodup) (r : List Index)
    (h : mappedSlice slc src dst = .ok r) :
    r.length = dst.length ∧ ∀ (k : Nat) n, dst[k]? = some n →
      (∀ (i : Nat) s, src[i]? = some n → slc[i]? = some s → r[k]? = some s) ∧ (n ∉ src → r[k]? = some (.slice PySlice.all)) := by
  obtain ⟨h1, h2⟩ := mapM_get _ dst r h
  refine ⟨h1, ?_⟩
  intro k n hk
  obtain ⟨b, hb1, hb2⟩ := h2 k n hk
  refine ⟨?_, ?_⟩
  · intro i s hi hs
    obtain ⟨hlt, he⟩ := List.getElem?_eq_some_iff.1 hi
    have hidx : src.idxOf? n = some i := by
      have : src.findIdx? (fun x => x == n) = some i := by
        rw [List.findIdx?_eq_some_iff_getElem]
        refine ⟨hlt, by simp [he], ?_⟩
        intro j hji
        simp only [beq_iff_eq]
        intro hjn
        have : j = i := (List.getElem?_inj (by omega) hnd).1 (by rw [hi, List.getElem?_eq_getElem (by omega), hjn])
        omega
      exact this
    rw [hidx] at hb2
    simp only [hs] at hb2
    injection hb2 with hb2
    rw [hb1, hb2]
  · intro hno
    rw [List.idxOf?_eq_none_iff.2 hno] at hb2
    injection hb2 with hb2
    rw [hb1, hb2]

example : mappedSlice [.slice ⟨some 1, some 2⟩, .ints [0, 2]] ["y", "x"] ["x", "t", "y"] =
    .ok [.ints [0, 2], .slice PySlice.all, .slice ⟨some 1, some 2⟩] := by decide

end Ocgis.Props
