import Verif.Proofs.FieldSliceMain
import Verif.Props.DictSlice

/-! C96: slices of a field by the standard names of its dimensions. -/

namespace Ocgis.Props
open Ocgis Ocgis.DictSlice Ocgis.Scopes Ocgis.FieldSlice Ocgis.Spec

/-- C96: a slice by standard names is what the slice of the same collection by the own names of its dimensions is, under the own names, and
an error is the same; the dictionary is as it was.  Not strict and strict slices agree, as all names are known.  Partial: for names that are
unambiguous (`C96_shared_counterexample`, `C96_clash_counterexample`, `C96_own_name_counterexample`). -/
theorem C96_own_names_partial {α : Type} (f : SField α) (hs : SoundField f) (hu : Unambiguous f) (d d' : Assoc RawIndex) (hd : SameSlices f d d')
    (strict : Bool) :
    (∀ e, sliceColl (asColl f) d' = .error e → (fieldSlice f d strict false).result = .error e) ∧
    (∀ c, sliceColl (asColl f) d' = .ok c → ∃ c', (fieldSlice f d strict false).result = .ok c' ∧ c'.vars = c.vars ∧
      (∀ n, find c'.dims n = find c.dims n) ∧ ∀ n D, find c'.dims n = some D → D.name = n) ∧
    (fieldSlice f d strict false).dslice = d := by
  obtain ⟨h1, h2, h3⟩ := whole hs hu hd strict false
  have hown : ∀ x, sliceColl (asColl f) d' = x → ownSlice f d' strict false = match x with
      | .error e => .error e
      | .ok r => .ok (d'.map (·.1), r) := by
    intro x hx
    unfold ownSlice
    simp only [Bool.false_eq_true, if_false]
    rw [hx]
    cases x <;> rfl
  refine ⟨fun e he => h1 e (hown _ he), fun c hc => ?_, h3⟩
  obtain ⟨c', e1, e2, e3, e4⟩ := h2 _ c (hown _ hc)
  exact ⟨c', e1, e2, e3, fun n D h => e4 n D (by rw [← e3]; exact h)⟩

example : SoundField sliceField ∧ Unambiguous sliceField ∧
    SameSlices sliceField [("y", .int 1), ("x", .slice ⟨some 0, some 2⟩)] [("lat", .int 1), ("lon", .slice ⟨some 0, some 2⟩)] :=
  ⟨sliceField_sound, sliceField_clear, sliceField_slices⟩

/-- C96: every variable is cut to the positions the slices keep, and every dimension has its own name and that many positions.  Partial:
for indices of the kind in `C38_collection_partial`, one array for a variable at most. -/
theorem C96_slice_partial {α : Type} (f : SField α) (hs : SoundField f) (hu : Unambiguous f) (hf : VariablesFit f) (d d' : Assoc RawIndex)
    (hd : SameSlices f d d') (hdk : (d'.map (·.1)).Nodup) (hne : f.dims ≠ []) (hlen : ∀ n i, (n, i) ∈ f.dims → 0 ≤ (f.objs i).len)
    (hsup : ∀ n s i, (n, s) ∈ d' → (n, i) ∈ f.dims → Aligned (f.objs i) ∧ 0 < (f.objs i).len ∧ Supported (f.objs i).len.toNat s)
    (hone : ∀ k v, (k, v) ∈ f.vars → ∀ (i j : Nat) n m s t, v.names[i]? = some n → v.names[j]? = some m →
      (n, s) ∈ d' → (m, t) ∈ d' → UsesArray s → UsesArray t → i = j) (strict : Bool) :
    ∃ (c : Coll α) (kept : Kept), (fieldSlice f d strict false).result = .ok c ∧
      (∀ n i, (n, i) ∈ f.dims → (∀ s, (n, s) ∈ d' → pick s (List.range (f.objs i).len.toNat) = .ok (kept n)) ∧
        ((∀ s, (n, s) ∉ d') → kept n = List.range (f.objs i).len.toNat)) ∧
      (∀ n, n ∈ dimensionNames f ↔ ∃ D, find c.dims n = some D) ∧ (∀ n D, find c.dims n = some D → D.name = n ∧ D.len = (kept n).length) ∧
      c.vars.map (·.1) = f.vars.map (·.1) ∧
      ∀ (j : Nat) k v v', f.vars[j]? = some (k, v) → c.vars[j]? = some (k, v') → Restricts kept v v' := by
  have hak : (asColl f).dims.map (·.1) = f.dims.map (·.1) := by
    unfold asColl
    rw [List.map_map]
    rfl
  have hmem : ∀ n D, (n, D) ∈ (asColl f).dims ↔ ∃ i, (n, i) ∈ f.dims ∧ f.objs i = D := by
    intro n D
    unfold asColl
    simp only [List.mem_map, Prod.mk.injEq, Prod.exists]
    constructor
    · rintro ⟨a, i, h1, rfl, rfl⟩
      exact ⟨i, h1, rfl⟩
    · rintro ⟨i, h1, rfl⟩
      exact ⟨n, i, h1, rfl, rfl⟩
  have hdn : ∀ n s, (n, s) ∈ d' → n ∈ f.dims.map (·.1) := by
    intro n s hm
    unfold SameSlices at hd
    clear hsup hone hdk
    induction hd with
    | nil => cases hm
    | cons h1 _ ih =>
      rcases List.mem_cons.1 hm with h | h
      · have := h1.2.1
        rw [← h] at this
        exact this
      · exact ih h
  obtain ⟨c2, kept, e1, e2, e3, e4, e5, e6⟩ := C38_collection_partial (asColl f) d' hdk (by rw [hak]; exact hs.keys)
    (by unfold asColl; simpa using hne)
    (by
      intro n D hm
      obtain ⟨i, h1, rfl⟩ := (hmem n D).1 hm
      exact hlen n i h1)
    (by
      intro n s hm
      obtain ⟨⟨n, i⟩, h1, rfl⟩ := List.mem_map.1 (hdn n s hm)
      exact ⟨f.objs i, (hmem _ _).2 ⟨i, h1, rfl⟩, hsup n s i hm h1⟩)
    (by
      intro k v hm
      obtain ⟨h1, h2⟩ := hf k v hm
      refine ⟨h1, fun j n hj => ?_⟩
      obtain ⟨i, h3, h4⟩ := h2 j n hj
      exact ⟨f.objs i, (hmem _ _).2 ⟨i, h3, rfl⟩, h4⟩)
    hone
  obtain ⟨-, w2, -⟩ := C96_own_names_partial f hs hu d d' hd strict
  obtain ⟨c, w3, w4, w5, w6⟩ := w2 c2 e1
  have hkeys : (c2.dims.map (·.1)).Nodup := by rw [e3, hak]; exact hs.keys
  refine ⟨c, kept, w3, fun n i hm => e2 n _ ((hmem _ _).2 ⟨i, hm, rfl⟩), fun n => ?_, fun n D h => ⟨w6 n D h, ?_⟩, ?_, ?_⟩
  · rw [w5, find_isSome, e3, hak]
    rfl
  · rw [w5] at h
    exact e4 n D (mem_of_find _ h)
  · rw [w4, e5]
    rfl
  · rw [w4]
    exact e6

example : ∃ c, (fieldSlice sliceField [("y", .int 1), ("x", .slice ⟨some 0, some 2⟩)] true false).result = .ok c ∧
    c.dims.map (fun kd => (kd.1, kd.2.len)) = [("t", 4), ("lat", 1), ("lon", 2)] ∧
    (c.vars.map fun kv => (kv.1, kv.2.names, kv.2.shape, kv.2.value [0])) =
      [("tas", ["t", "lat", "lon"], [4, 1, 2], 0), ("lat", ["lat"], [1], 1)] := ⟨_, rfl, by decide, by decide⟩

/-- C96: whatever the slice, the field is afterwards what it was, but that its dimension map lists the name of a variable for which no
dimension was listed (`C96_listed_counterexample`).  Partial: for names that are unambiguous. -/
theorem C96_field_partial {α : Type} (f : SField α) (hs : SoundField f) (hu : Unambiguous f) (d : Assoc RawIndex) (strict distributed : Bool) :
    OnlyListed f (fieldSlice f d strict distributed).field := field_after hs hu d strict distributed

example : OnlyListed sliceField (fieldSlice sliceField [("y", .int 1), ("level", .int 0)] true true).field :=
  C96_field_partial sliceField sliceField_sound sliceField_clear _ true true

/-- C96: a strict slice by a name that no dimension has is refused. -/
theorem C96_unknown {α : Type} (f : SField α) (hs : SoundField f) (hu : Unambiguous f) (d : Assoc RawIndex)
    (h : ∃ p ∈ d, ∀ n ∈ dimensionNames f, ¬ SliceName f n p.1) : ∃ e, (fieldSlice f d true false).result = .error e := by
  obtain ⟨c, h1, h2, h3⟩ := entered hs hu
  obtain ⟨p, hp, hno⟩ := h
  have hp' : p.1 ∉ (renamedColl f c).dims.map (·.1) := by
    intro hm
    unfold renamedColl at hm
    rw [List.map_map] at hm
    obtain ⟨⟨k, i⟩, h4, h5⟩ := List.mem_map.1 hm
    obtain ⟨n, h6, h7⟩ := h2.only k i h4
    refine hno n (List.mem_map.2 ⟨_, h6, rfl⟩) ?_
    have : p.1 = newName (nameMapping f.dmap) n := by
      rw [← h7]
      exact h5.symm
    rw [this]
    exact newName_slice f n
  have hdims : ∀ acc, ∃ e, sliceDims (renamedColl f c).dims d acc = .error e := by
    clear hno h3 h2 h1
    induction d with
    | nil => cases hp
    | cons q d ih =>
      intro acc
      obtain ⟨n, s⟩ := q
      unfold sliceDims
      cases hf : find (renamedColl f c).dims n with
      | none => exact ⟨_, rfl⟩
      | some D =>
        simp only
        cases D.getitem s with
        | error e => exact ⟨e, rfl⟩
        | ok D' =>
          simp only
          rcases List.mem_cons.1 hp with h | h
          · subst h
            exact absurd ((find_isSome _ _).1 ⟨D, hf⟩) hp'
          · exact ih h _
  obtain ⟨e, he⟩ : ∃ e, sliceColl (renamedColl f c) d = .error e := by
    unfold sliceColl
    split
    · exact ⟨_, rfl⟩
    · obtain ⟨e, he⟩ := hdims (renamedColl f c).dims
      exact ⟨e, by rw [he]⟩
  refine ⟨e, ?_⟩
  unfold fieldSlice
  rw [h1]
  simp only [if_true]
  have : sliceInside f c d true false = .error e := by
    unfold sliceInside
    simp only [Bool.false_eq_true, if_false]
    rw [he]
  rw [this]

example : (∃ e, (fieldSlice sliceField [("y", .int 1), ("level", .int 0)] true false).result = .error e) ∧
    (∃ p ∈ [("y", RawIndex.int 1), ("level", .int 0)], ∀ n ∈ dimensionNames sliceField, ¬ SliceName sliceField n p.1) := by
  refine ⟨⟨_, rfl⟩, ("level", .int 0), by simp, fun n hn h => ?_⟩
  have := sliceName_eq sliceField_clear hn h
  simp only [dimensionNames, sliceField, List.map_cons, List.map_nil, List.mem_cons, List.not_mem_nil, or_false] at hn
  rcases hn with rfl | rfl | rfl <;> revert this <;> decide

/-- C96: without `strict`, names that no dimension has are left out.  Partial: they are gone from the caller's dictionary, too
(`C96_dictionary_counterexample`). -/
theorem C96_loose_partial {α : Type} (f : SField α) (hs : SoundField f) (hu : Unambiguous f) (d known : Assoc RawIndex) (hk : known.Sublist d)
    (hnd : (d.map (·.1)).Nodup) (h : ∀ p ∈ d, p ∈ known ↔ ∃ n ∈ dimensionNames f, SliceName f n p.1) :
    (fieldSlice f d false false).result = (fieldSlice f known true false).result ∧ (fieldSlice f d false false).dslice = known := by
  obtain ⟨c, h1, h2, h3⟩ := entered hs hu
  have hc : ∀ k, (c.dims.any fun kd => kd.1 == k) = true ↔ ∃ n ∈ dimensionNames f, SliceName f n k := by
    intro k
    rw [List.any_eq_true]
    constructor
    · rintro ⟨⟨k', i⟩, h4, h5⟩
      simp only [beq_iff_eq] at h5
      subst h5
      obtain ⟨n, h6, h7⟩ := h2.only k' i h4
      refine ⟨n, List.mem_map.2 ⟨_, h6, rfl⟩, ?_⟩
      rw [h7]
      exact newName_slice f n
    · rintro ⟨n, h4, h5⟩
      obtain ⟨⟨n, i⟩, h6, rfl⟩ := List.mem_map.1 h4
      exact ⟨_, (h2.there n i h6).1, by simp [sliceName_eq hu h4 h5]⟩
  have hfil : (d.filter fun ks => c.dims.any fun kd => kd.1 == ks.1) = known := by
    clear h1 h2 h3
    induction d generalizing known with
    | nil => cases hk; rfl
    | cons p d ih =>
      simp only [List.map_cons, List.nodup_cons] at hnd
      have hp := h p (by simp)
      rw [List.filter_cons]
      by_cases hx : (c.dims.any fun kd => kd.1 == p.1) = true
      · rw [if_pos hx]
        have hpk := hp.2 ((hc _).1 hx)
        cases hk with
        | cons _ hk =>
          exact absurd (List.mem_map.2 ⟨p, hk.subset hpk, rfl⟩) hnd.1
        | cons_cons _ hk =>
          rename_i known
          congr 1
          refine ih known hk hnd.2 fun q hq => ?_
          rw [← h q (List.mem_cons_of_mem _ hq), List.mem_cons]
          constructor
          · exact fun h => .inr h
          · rintro (h | h)
            · subst h
              exact absurd (List.mem_map.2 ⟨q, hq, rfl⟩) hnd.1
            · exact h
      · rw [if_neg hx]
        have hpk : p ∉ known := fun hm => hx ((hc _).2 (hp.1 hm))
        cases hk with
        | cons _ hk => exact ih known hk hnd.2 fun q hq => h q (List.mem_cons_of_mem _ hq)
        | cons_cons _ hk => exact absurd (by simp) hpk
  unfold fieldSlice
  rw [h1]
  simp only [if_true, Bool.false_eq_true, if_false]
  rw [hfil]
  have : sliceInside f c known false false = sliceInside f c known true false := rfl
  rw [this]
  constructor
  · cases sliceInside f c known true false with
    | error e => rfl
    | ok yc => rfl
  · cases sliceInside f c known true false with
    | error e => rfl
    | ok yc => rfl

example : (fieldSlice sliceField [("y", .int 1), ("level", .int 0)] false false).dslice = [("y", .int 1)] := by decide

/-- C96: a distributed slice on one process, which is what operations ask for: the dimensions of the first data variable are cut to the
positions the slices keep, and every variable along them.  Partial: dimensions the first data variable does not have are not cut
(`C96_first_variable_counterexample`), and the indices are plain (`C96_open_counterexample`, `C96_last_counterexample`,
`C96_negative_counterexample`), one array for a variable at most. -/
theorem C96_distributed_partial {α : Type} (f : SField α) (hs : SoundField f) (hu : Unambiguous f) (hf : VariablesFit f) (d d' : Assoc RawIndex)
    (hd : SameSlices f d d') (hdk : (d'.map (·.1)).Nodup) (hne : f.dims ≠ []) (hlen : ∀ n i, (n, i) ∈ f.dims → 0 ≤ (f.objs i).len)
    (k₀ : String) (rest : List String) (v₀ : DVar α) (hdata : f.data = k₀ :: rest) (hv : find f.vars k₀ = some v₀) (strict : Bool)
    (hst : strict = true → ∀ n ∈ v₀.names, ∃ s, (n, s) ∈ d')
    (hok : ∀ n i, n ∈ v₀.names → (n, i) ∈ f.dims → Aligned (f.objs i) ∧ 0 < (f.objs i).len ∧ (f.objs i).isEmpty = false ∧
      ∀ s, (n, s) ∈ d' → PlainIndex (f.objs i).len.toNat s)
    (hone : ∀ k v, (k, v) ∈ f.vars → ∀ (i j : Nat) n m s t, v.names[i]? = some n → v.names[j]? = some m →
      (n, s) ∈ d' → (m, t) ∈ d' → UsesArray s → UsesArray t → i = j) :
    ∃ (c : Coll α) (kept : Kept), (fieldSlice f d strict true).result = .ok c ∧
      (∀ n i, (n, i) ∈ f.dims → (n ∈ v₀.names → ∀ s, (n, s) ∈ d' → pick s (List.range (f.objs i).len.toNat) = .ok (kept n)) ∧
        (n ∉ v₀.names ∨ (∀ s, (n, s) ∉ d') → kept n = List.range (f.objs i).len.toNat)) ∧
      (∀ n, n ∈ dimensionNames f ↔ ∃ D, find c.dims n = some D) ∧ (∀ n D, find c.dims n = some D → D.name = n ∧ D.len = (kept n).length) ∧
      c.vars.map (·.1) = f.vars.map (·.1) ∧
      (∀ (j : Nat) k v v', f.vars[j]? = some (k, v) → c.vars[j]? = some (k, v') → Restricts kept v v') ∧
      (fieldSlice f d strict true).dslice = d := by
  have hak : (asColl f).dims.map (·.1) = f.dims.map (·.1) := by
    unfold asColl
    rw [List.map_map]
    rfl
  have hmem : ∀ n D, (n, D) ∈ (asColl f).dims ↔ ∃ i, (n, i) ∈ f.dims ∧ f.objs i = D := by
    intro n D
    unfold asColl
    simp only [List.mem_map, Prod.mk.injEq, Prod.exists]
    constructor
    · rintro ⟨a, i, h1, rfl, rfl⟩
      exact ⟨i, h1, rfl⟩
    · rintro ⟨i, h1, rfl⟩
      exact ⟨n, i, h1, rfl, rfl⟩
  obtain ⟨hvn, hvd⟩ := hs.vars k₀ v₀ (mem_of_find _ hv)
  have hfd : ∀ n s, find d' n = some s ↔ (n, s) ∈ d' := fun n s => ⟨mem_of_find _, find_of_mem _ hdk⟩
  have hplain : ∀ n i, n ∈ v₀.names → (n, i) ∈ f.dims → ∃ D' l, distDim (asColl f).dims d' strict n = .ok (D', l) ∧
      Supported (f.objs i).len.toNat l ∧ (∃ p, pick l (List.range (f.objs i).len.toNat) = .ok p ∧ D'.len = p.length) ∧
      (∀ s, find d' n = some s → pick l (List.range (f.objs i).len.toNat) = pick s (List.range (f.objs i).len.toNat)) ∧
      (find d' n = none → l = .slice PySlice.all) ∧ (UsesArray l → ∃ s, find d' n = some s ∧ UsesArray s) := by
    intro n i hn hm
    obtain ⟨a1, a2, a3, a4⟩ := hok n i hn hm
    refine distDim_plain _ d' strict n (f.objs i) (find_objs f hs.keys n i hm) (fun h => ?_) a1 a2 a3 fun s h => a4 s ((hfd n s).1 h)
    obtain ⟨s, h1⟩ := hst h n hn
    rw [(hfd n s).2 h1]
    exact fun h => by cases h
  obtain ⟨ps, hps, hpl⟩ := mapM_exists (distDim (asColl f).dims d' strict) v₀.names (fun n hn => by
    obtain ⟨⟨n, i⟩, h1, rfl⟩ := List.mem_map.1 (hvd n hn)
    obtain ⟨D', sl, h2, -⟩ := hplain n i hn h1
    exact ⟨_, h2⟩)
  have hzk : (v₀.names.zip (ps.map (·.2))).map (·.1) = v₀.names := List.map_fst_zip (by simp [hpl])
  have hzk1 : (v₀.names.zip (ps.map (·.1))).map (·.1) = v₀.names := List.map_fst_zip (by simp [hpl])
  have hzip : ∀ n, n ∈ v₀.names → ∃ p, (n, p) ∈ v₀.names.zip ps := by
    intro n hn
    obtain ⟨j, hj, hje⟩ := List.getElem_of_mem hn
    refine ⟨ps[j]'(by omega), ?_⟩
    rw [← hje, List.mem_iff_getElem]
    exact ⟨j, by simp; omega, by simp⟩
  have hz2 : ∀ n l, (n, l) ∈ v₀.names.zip (ps.map (·.2)) → ∃ D, (n, (D, l)) ∈ v₀.names.zip ps := by
    intro n l h
    rw [List.zip_map_right] at h
    obtain ⟨⟨a, D, b⟩, h6, h7⟩ := List.mem_map.1 h
    simp only [Prod.map_apply, id, Prod.mk.injEq] at h7
    obtain ⟨rfl, rfl⟩ := h7
    exact ⟨D, h6⟩
  have hz2' : ∀ n D l, (n, (D, l)) ∈ v₀.names.zip ps → (n, l) ∈ v₀.names.zip (ps.map (·.2)) ∧ (n, D) ∈ v₀.names.zip (ps.map (·.1)) := by
    intro n D l h
    rw [List.zip_map_right, List.zip_map_right]
    exact ⟨List.mem_map.2 ⟨_, h, rfl⟩, List.mem_map.2 ⟨_, h, rfl⟩⟩
  have hslice : ∀ n l i, (n, l) ∈ v₀.names.zip (ps.map (·.2)) → (n, i) ∈ f.dims →
      Supported (f.objs i).len.toNat l ∧ (UsesArray l → ∃ s, (n, s) ∈ d' ∧ UsesArray s) := by
    intro n l i h hm
    obtain ⟨D, h1⟩ := hz2 n l h
    have h2 := mapM_mem _ _ _ hps n _ h1
    obtain ⟨D', sl, h3, h4, -, -, -, h5⟩ := hplain n i (List.of_mem_zip h1).1 hm
    rw [h2] at h3
    cases h3
    refine ⟨h4, fun hu' => ?_⟩
    obtain ⟨s, h6, h7⟩ := h5 hu'
    exact ⟨s, (hfd n s).1 h6, h7⟩
  obtain ⟨c2, kept, e1, e2, e3, e4, e5, e6⟩ := C38_collection_partial (asColl f) (v₀.names.zip (ps.map (·.2))) (by rw [hzk]; exact hvn)
    (by rw [hak]; exact hs.keys) (by unfold asColl; simpa using hne)
    (by
      intro n D hm
      obtain ⟨i, h1, rfl⟩ := (hmem n D).1 hm
      exact hlen n i h1)
    (by
      intro n l hm
      obtain ⟨⟨n, i⟩, h1, rfl⟩ := List.mem_map.1 (hvd n (List.of_mem_zip hm).1)
      obtain ⟨h2, -⟩ := hslice n l i hm h1
      obtain ⟨a1, a2, -, -⟩ := hok n i (List.of_mem_zip hm).1 h1
      exact ⟨f.objs i, (hmem _ _).2 ⟨i, h1, rfl⟩, a1, a2, h2⟩)
    (by
      intro k v hm
      obtain ⟨h1, h2⟩ := hf k v hm
      refine ⟨h1, fun j n hj => ?_⟩
      obtain ⟨i, h3, h4⟩ := h2 j n hj
      exact ⟨f.objs i, (hmem _ _).2 ⟨i, h3, rfl⟩, h4⟩)
    (by
      intro k v hm i j n m s t hi hj h1 h2 h3 h4
      obtain ⟨⟨n, a⟩, h5, rfl⟩ := List.mem_map.1 (hvd n (List.of_mem_zip h1).1)
      obtain ⟨⟨m, b⟩, h6, rfl⟩ := List.mem_map.1 (hvd m (List.of_mem_zip h2).1)
      obtain ⟨s', h7, h8⟩ := (hslice n s a h1 h5).2 h3
      obtain ⟨t', h9, h10⟩ := (hslice m t b h2 h6).2 h4
      exact hone k v hm i j n m s' t' hi hj h7 h9 h8 h10)
  have hown : ownSlice f d' strict true =
      .ok (v₀.names, { c2 with dims := (v₀.names.zip (ps.map (·.1))).foldl (fun ds nd => put ds nd.1 nd.2) c2.dims }) := by
    unfold ownSlice distColl
    simp only [if_true, hdata]
    have : find (asColl f).vars k₀ = some v₀ := hv
    rw [this]
    simp only
    rw [hps]
    simp only
    rw [e1]
  obtain ⟨-, w2, w7⟩ := whole hs hu hd strict true
  obtain ⟨c, w3, w4, w5, w6⟩ := w2 _ _ hown
  refine ⟨c, kept, w3, fun n i hm => ?_, fun n => ?_, fun n D h => ?_, ?_, ?_, w7⟩
  · obtain ⟨g1, g2⟩ := e2 n _ ((hmem _ _).2 ⟨i, hm, rfl⟩)
    have hin : n ∈ v₀.names → ∃ D l, (n, l) ∈ v₀.names.zip (ps.map (·.2)) ∧ distDim (asColl f).dims d' strict n = .ok (D, l) := by
      intro hn
      obtain ⟨⟨D, l⟩, h1⟩ := hzip n hn
      exact ⟨D, l, (hz2' n D _ h1).1, mapM_mem _ _ _ hps n _ h1⟩
    refine ⟨fun hn s h => ?_, fun h => ?_⟩
    · obtain ⟨D, sl, h1, h2⟩ := hin hn
      obtain ⟨D', sl', h3, -, -, h4, -, -⟩ := hplain n i hn hm
      rw [h2] at h3
      cases h3
      rw [← h4 s ((hfd n s).2 h)]
      exact g1 _ h1
    · by_cases hn : n ∈ v₀.names
      · obtain ⟨D, sl, h1, h2⟩ := hin hn
        obtain ⟨D', sl', h3, -, -, -, h4, -⟩ := hplain n i hn hm
        rw [h2] at h3
        cases h3
        have hnone : find d' n = none := by
          cases hfn : find d' n with
          | none => rfl
          | some s =>
            rcases h with h | h
            · exact absurd hn h
            · exact absurd ((hfd n s).1 hfn) (h s)
        have h5 := g1 _ h1
        rw [h4 hnone] at h5
        obtain ⟨g, e1, e2⟩ := supported_format (List.range (f.objs i).len.toNat) .none trivial
        cases e1
        have : pick (.slice PySlice.all) (List.range (f.objs i).len.toNat) = .ok (List.range (f.objs i).len.toNat) := e2
        rw [this] at h5
        exact (Except.ok.inj h5).symm
      · exact g2 fun s hs' => hn (List.of_mem_zip hs').1
  · rw [w5, find_isSome, foldPut_keys, e3, hak]
    rfl
  · rw [w5] at h
    refine ⟨w6 n D h, ?_⟩
    simp only at h
    by_cases hn : n ∈ v₀.names
    · obtain ⟨⟨n, i⟩, hm, rfl⟩ := List.mem_map.1 (hvd n hn)
      obtain ⟨⟨D', l⟩, h1⟩ := hzip n hn
      have h2 := mapM_mem _ _ _ hps n _ h1
      obtain ⟨D'', sl, h3, -, ⟨p, h4, h5⟩, -, -, -⟩ := hplain n i hn hm
      rw [h2] at h3
      cases h3
      rw [foldPut_there _ (by rw [hzk1]; exact hvn) n D' (hz2' n D' _ h1).2 _ (by rw [e3, hak]; exact List.mem_map.2 ⟨_, hm, rfl⟩)] at h
      cases h
      obtain ⟨g1, -⟩ := e2 n _ ((hmem _ _).2 ⟨i, hm, rfl⟩)
      have h6 := g1 _ (hz2' n _ _ h1).1
      rw [h4] at h6
      rw [h5, Except.ok.inj h6]
    · rw [foldPut_other _ n (by rw [hzk1]; exact hn)] at h
      exact e4 n D (mem_of_find _ h)
  · rw [w4, e5]
    rfl
  · rw [w4]
    exact e6

example : ∃ c, (fieldSlice sliceField [("y", .int 1), ("x", .slice ⟨some 0, some 2⟩)] false true).result = .ok c ∧
    c.dims.map (fun kd => (kd.1, kd.2.len)) = [("t", 4), ("lat", 1), ("lon", 2)] ∧
    (c.vars.map fun kv => (kv.1, kv.2.names, kv.2.shape, kv.2.value [0])) =
      [("tas", ["t", "lat", "lon"], [4, 1, 2], 0), ("lat", ["lat"], [1], 1)] := ⟨_, rfl, by decide, by decide⟩

example : VariablesFit sliceField ∧ (∀ n i, n ∈ ["t", "lat", "lon"] → (n, i) ∈ sliceField.dims → Aligned (sliceField.objs i) ∧ 0 < (sliceField.objs i).len ∧
    (sliceField.objs i).isEmpty = false ∧ ∀ s, (n, s) ∈ [("lat", RawIndex.int 1), ("lon", .slice ⟨some 0, some 2⟩)] → PlainIndex (sliceField.objs i).len.toNat s) := by
  refine ⟨sliceField_fits, fun n i _ hm => ?_⟩
  simp only [sliceField, List.mem_cons, Prod.mk.injEq, List.not_mem_nil, or_false] at hm
  rcases hm with ⟨rfl, rfl⟩ | ⟨rfl, rfl⟩ | ⟨rfl, rfl⟩
  · refine ⟨trivial, by decide, by decide, fun s hs => ?_⟩
    simp at hs
  · refine ⟨trivial, by decide, by decide, fun s hs => ?_⟩
    simp at hs
    subst hs
    exact ⟨by decide, by decide⟩
  · refine ⟨trivial, by decide, by decide, fun s hs => ?_⟩
    simp at hs
    subst hs
    exact .inr ⟨0, 2, rfl, by decide, by decide, by decide, by decide, by decide⟩

/-- An array of positions and one of truth values. -/
example : ∃ c c', (fieldSlice sliceField [("x", .ints [0, 2])] false true).result = .ok c ∧
    (fieldSlice sliceField [("x", .bools [true, false, true, false, false])] false true).result = .ok c' ∧
    c.dims.map (fun kd => (kd.1, kd.2.len)) = [("t", 4), ("lat", 3), ("lon", 2)] ∧ c.vars.map (fun kv => (kv.1, kv.2.shape)) = c'.vars.map (fun kv => (kv.1, kv.2.shape)) ∧
    PlainIndex 5 (.ints [0, 2]) ∧ PlainIndex 5 (.bools [true, false, true, false, false]) :=
  ⟨_, _, rfl, rfl, by decide, by decide, ⟨by decide, .inl ⟨[], 0, 2, [], rfl, by decide⟩⟩, by decide, by decide⟩

/-! ## What is not so -/

/-- C96 is false for the caller's dictionary: without `strict` it loses the names the field does not have, and the next field sliced by it,
which has them, is not sliced along them. -/
theorem C96_dictionary_counterexample : ∃ (f g : SField Nat) (d : Assoc RawIndex), SoundField f ∧ Unambiguous f ∧ SoundField g ∧ Unambiguous g ∧
    (∃ c, (fieldSlice g d false false).result = .ok c ∧ c.dims.map (fun kd => kd.2.len) = [1]) ∧
    ∃ c, (fieldSlice g (fieldSlice f d false false).dslice false false).result = .ok c ∧ c.dims.map (fun kd => kd.2.len) = [3] := by
  refine ⟨sliceField, { objs := fun _ => sliceDim "lev" 3, dims := [("lev", 0)], vars := [], dmap := [("level", ⟨some "lev", ["lev"]⟩)] },
    [("level", .int 0)], sliceField_sound, sliceField_clear, ⟨by decide, by decide, fun n i h => ?_, fun k v h => ?_⟩, unambiguous_of _ (by decide),
    ⟨_, rfl, by decide⟩, ⟨_, rfl, by decide⟩⟩
  · simp at h
    obtain ⟨rfl, rfl⟩ := h
    decide
  · cases h

/-- C96 is false when two standard names share a dimension: a field of points cannot be sliced at all. -/
theorem C96_shared_counterexample : ∃ (f : SField Nat) (d : Assoc RawIndex), SoundField f ∧ GivesName f.dmap "x" "pt" ∧ GivesName f.dmap "y" "pt" ∧
    (fieldSlice f d true false).result = .error .valueError := by
  refine ⟨{ objs := fun _ => sliceDim "pt" 3, dims := [("pt", 0)], vars := [("lat", { names := ["pt"], shape := [3], value := fun _ => 0 })], dmap := [("y", ⟨some "lat", ["pt"]⟩), ("x", ⟨some "lon", ["pt"]⟩)] }, [("x", .int 0)], ⟨by decide, by decide, fun n i h => ?_, fun k v h => ?_⟩,
    (gives_iff _ _ _).2 ⟨["pt"], by decide, by decide⟩, (gives_iff _ _ _).2 ⟨["pt"], by decide, by decide⟩, rfl⟩
  · simp at h
    obtain ⟨rfl, rfl⟩ := h
    decide
  · simp at h
    obtain ⟨rfl, rfl⟩ := h
    exact ⟨by decide, by decide⟩

/-- C96 is false when a dimension that has no standard name is called by one: it is gone. -/
theorem C96_clash_counterexample : ∃ (f : SField Nat) (c : Coll Nat), SoundField f ∧ (dimensionNames f) = ["x", "lon"] ∧ GivesName f.dmap "x" "lon" ∧
    (fieldSlice f [("x", .int 0)] true false).result = .ok c ∧ c.dims.map (·.1) = ["lon"] := by
  refine ⟨{ objs := fun i => if i = 0 then sliceDim "x" 2 else sliceDim "lon" 3, dims := [("x", 0), ("lon", 1)], vars := [], dmap := [("x", ⟨some "lon", ["lon"]⟩)] }, _, ⟨by decide, by decide, fun n i h => ?_, fun k v h => ?_⟩, rfl,
    (gives_iff _ _ _).2 ⟨["lon"], by decide, by decide⟩, rfl, by decide⟩
  · simp at h
    rcases h with ⟨rfl, rfl⟩ | ⟨rfl, rfl⟩ <;> decide
  · cases h

/-- C96 is false for the own name of a dimension with a standard name: it is not known. -/
theorem C96_own_name_counterexample : ∃ (f : SField Nat), SoundField f ∧ Unambiguous f ∧ "lat" ∈ dimensionNames f ∧
    (fieldSlice f [("lat", .int 0)] true false).result = .error .keyError :=
  ⟨sliceField, sliceField_sound, sliceField_clear, by decide, rfl⟩

/-- C96 is false for the dimension map of the sliced field: a dimension is listed that was not. -/
theorem C96_listed_counterexample : ∃ (f : SField Nat) (d : Assoc RawIndex), SoundField f ∧ Unambiguous f ∧
    find f.dmap "y" = some ⟨some "lat", []⟩ ∧ find (fieldSlice f d true false).field.dmap "y" = some ⟨some "lat", ["lat"]⟩ :=
  ⟨sliceField, [("x", .int 0)], sliceField_sound, sliceField_clear, by decide, by decide⟩

/-- C96 is false for distributed slices with an open end: the same slice that works otherwise is refused. -/
theorem C96_open_counterexample : ∃ (f : SField Nat) (c : Coll Nat), SoundField f ∧ Unambiguous f ∧
    (fieldSlice f [("x", .slice ⟨some 1, none⟩)] false false).result = .ok c ∧
    (fieldSlice f [("x", .slice ⟨some 1, none⟩)] false true).result = .error .valueError :=
  ⟨sliceField, _, sliceField_sound, sliceField_clear, rfl, rfl⟩

/-- C96 is false for the last position given as `-1`, without and with `distributed`: no value is left of a dimension of length one, or a
`TypeError`. -/
theorem C96_last_counterexample : ∃ (f : SField Nat) (c : Coll Nat), SoundField f ∧ Unambiguous f ∧
    (fieldSlice f [("x", .int (-1))] false false).result = .ok c ∧ (find c.dims "lon").map (·.len) = some 1 ∧
    (find c.vars "tas").map (·.shape) = some [4, 3, 0] ∧
    (fieldSlice f [("x", .int (-1))] false true).result = .error .typeError :=
  ⟨sliceField, _, sliceField_sound, sliceField_clear, rfl, by decide, by decide, rfl⟩

/-- C96 is false for a negative start of a distributed slice: it counts as the beginning, for the values but not for the dimension. -/
theorem C96_negative_counterexample : ∃ (f : SField Nat) (c : Coll Nat), SoundField f ∧ Unambiguous f ∧
    (fieldSlice f [("x", .slice ⟨some (-2), some 5⟩)] false true).result = .ok c ∧ (find c.vars "tas").map (·.shape) = some [4, 3, 5] ∧
    pick (.slice ⟨some (-2), some 5⟩) (List.range 5) = .ok [3, 4] :=
  ⟨sliceField, _, sliceField_sound, sliceField_clear, rfl, by decide, by decide⟩

/-- C96 is false for dimensions that only other variables have: a distributed slice leaves them whole. -/
theorem C96_first_variable_counterexample : ∃ (f : SField Nat) (c c' : Coll Nat), SoundField f ∧ Unambiguous f ∧
    (fieldSlice f [("level", .int 0)] false false).result = .ok c ∧ (find c.vars "ta").map (·.shape) = some [1, 2] ∧
    (fieldSlice f [("level", .int 0)] false true).result = .ok c' ∧ (find c'.vars "ta").map (·.shape) = some [3, 2] := by
  refine ⟨{ objs := fun i => if i = 0 then sliceDim "lev" 3 else sliceDim "pt" 2, dims := [("lev", 0), ("pt", 1)], vars := [("tas", { names := ["pt"], shape := [2], value := fun _ => 0 }), ("ta", { names := ["lev", "pt"], shape := [3, 2], value := fun _ => 0 })], data := ["tas", "ta"], dmap := [("level", ⟨some "lev", ["lev"]⟩)] }, _, _, ⟨by decide, by decide, fun n i h => ?_, fun k v h => ?_⟩,
    unambiguous_of _ (by decide), rfl, by decide, rfl, by decide⟩
  · simp at h
    rcases h with ⟨rfl, rfl⟩ | ⟨rfl, rfl⟩ <;> decide
  · simp at h
    rcases h with ⟨rfl, rfl⟩ | ⟨rfl, rfl⟩ <;> exact ⟨by decide, by decide⟩

/-- C96 is false for a field without data variables: no distributed slice, whatever is asked for. -/
theorem C96_no_data_counterexample : ∃ (f : SField Nat), SoundField f ∧ Unambiguous f ∧
    ∀ d, (fieldSlice f d false true).result = .error .indexError := by
  refine ⟨{ sliceField with data := [] }, ⟨sliceField_sound.keys, sliceField_sound.objects, sliceField_sound.names, sliceField_sound.vars⟩,
    unambiguous_of _ (by decide), fun d => rfl⟩

/-- C96 is false past the end: the dimension is as long as it was, the values are fewer. -/
theorem C96_past_end_counterexample : ∃ (f : SField Nat) (c : Coll Nat), SoundField f ∧ Unambiguous f ∧
    (fieldSlice f [("x", .slice ⟨some 3, some 9⟩)] true false).result = .ok c ∧ (find c.dims "lon").map (·.len) = some 5 ∧
    (find c.vars "tas").map (·.shape) = some [4, 3, 2] :=
  ⟨sliceField, _, sliceField_sound, sliceField_clear, rfl, by decide, by decide⟩

end Ocgis.Props
