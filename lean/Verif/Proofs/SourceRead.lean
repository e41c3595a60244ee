import Verif.Spec.SourceRead
import Verif.Proofs.DictSlice
import Verif.Proofs.MapM
/-!
# Lemmas
-/
namespace Ocgis.Props
open Ocgis Ocgis.DictSlice Ocgis.SourceRead Ocgis.Spec
open Ocgis.Array (Arr)

/-- Increasing positions have a jump or are consecutive. -/
theorem increasing_shape (xs : List Int) (hne : xs ≠ []) (hp : xs.Pairwise (· < ·)) : HasJump xs ∨ IsRun xs := by
  induction xs with
  | nil => exact absurd rfl hne
  | cons x xs ih =>
    rw [List.pairwise_cons] at hp
    cases xs with
    | nil => exact .inr ⟨x, x + 1, by omega, by rw [intRange_cons (by omega), intRange_empty (by omega)]⟩
    | cons y ys =>
      have hxy := hp.1 y List.mem_cons_self
      rcases ih (by simp) hp.2 with ⟨l, a, b, r, h, hab⟩ | ⟨a, b, hab, h⟩
      · exact .inl ⟨x :: l, a, b, r, by rw [h]; rfl, hab⟩
      · by_cases hj : y - x > 1
        · exact .inl ⟨[], x, y, ys, rfl, hj⟩
        · refine .inr ⟨x, b, ?_, ?_⟩
          · rw [intRange_cons hab] at h
            injection h with h1 h2
            omega
          · have : a = x + 1 := by
              rw [intRange_cons hab] at h
              injection h with h1 h2
              omega
            rw [h, this, intRange_cons (a := x) (by omega)]

theorem orderly_supported (n : Nat) (i : RawIndex) (h : Orderly n i) : Supported n i := by
  cases i with
  | int i => exact h
  | slice s =>
    rcases h with h | ⟨a, b, h, h0, h1, h2⟩
    · exact .inl h
    · exact .inr ⟨a, b, h, h0, by omega, h2⟩
  | ints xs => exact ⟨h.2.2, increasing_shape xs h.1 h.2.1⟩
  | bools bs => exact h.1
  | none => trivial

theorem takeBools_map {α β : Type _} (f : α → β) (xs : List α) : ∀ bs, takeBools (xs.map f) bs = (takeBools xs bs).map f := by
  induction xs with
  | nil => intro bs; simp [takeBools]
  | cons x xs ih =>
    intro bs
    cases bs with
    | nil => simp [takeBools]
    | cons b bs => cases b <;> simp [takeBools, ih]

theorem takeInts_map {α β : Type _} (f : α → β) (xs : List α) (is : List Int) (ys : List α) (h : takeInts xs is = .ok ys) :
    takeInts (xs.map f) is = .ok (ys.map f) := by
  unfold takeInts at h ⊢
  rw [resMapM_ok_iff] at h ⊢
  refine ⟨by simpa using h.1, ?_⟩
  intro k i z hi hz
  rw [List.getElem?_map] at hz
  cases hy : ys[k]? with
  | none => rw [hy] at hz; cases hz
  | some y =>
    rw [hy] at hz
    simp only [Option.map_some, Option.some.injEq] at hz
    subst hz
    have := h.2 k i y hi hy
    simp only [List.length_map, List.getElem?_map] at this ⊢
    generalize (if i < 0 then i + (xs.length : Int) else i) = j at this ⊢
    by_cases hj : j < 0
    · rw [if_pos hj] at this; cases this
    · rw [if_neg hj] at this ⊢
      cases hx : xs[j.toNat]? with
      | none => rw [hx] at this; cases this
      | some x => rw [hx] at this; injection this with this; subst this; rfl

theorem pick_map {α β : Type _} (f : α → β) (i : RawIndex) (xs ys : List α) (h : pick i xs = .ok ys) :
    pick i (xs.map f) = .ok (ys.map f) := by
  cases i with
  | int i => exact takeInts_map f xs [i] ys h
  | ints is => exact takeInts_map f xs is ys h
  | none => injection h with h; subst h; rfl
  | bools bs =>
    simp only [pick] at h ⊢
    split at h
    · cases h
    · rename_i hl
      injection h with h
      subst h
      rw [if_neg (by simpa using hl), takeBools_map]
  | slice s =>
    simp only [pick] at h ⊢
    injection h with h
    subst h
    congr 1
    unfold PySlice.get
    simp

theorem map_getD_range {α : Type _} (xs : List α) (d : α) : (List.range xs.length).map (fun i => xs.getD i d) = xs := by
  apply List.ext_getElem?
  intro i
  rw [List.getElem?_map]
  by_cases h : i < xs.length
  · simp [h]
  · simp [h]

/-- What an index selects, through the positions it keeps. -/
theorem pick_axis {α : Type _} (d : α) (i : RawIndex) (xs : List α) (h : Orderly xs.length i) :
    pick i xs = .ok ((axisKept i xs.length).map fun j => xs.getD j d) := by
  have hs := orderly_supported _ _ h
  have : ∃ p, pick i (List.range xs.length) = .ok p := by
    cases i with
    | int i => exact ⟨_, takeInts_ok _ _ (by intro j hj; simp at hj; subst hj; rw [List.length_range]; exact h)⟩
    | ints is => exact ⟨_, takeInts_ok _ _ (by intro j hj; simpa using h.2.2 j hj)⟩
    | none => exact ⟨_, rfl⟩
    | slice s => exact ⟨_, rfl⟩
    | bools bs => exact ⟨_, by simp only [pick]; rw [if_neg (by simpa using h.1)]⟩
  obtain ⟨p, hp⟩ := this
  have := pick_map (fun j => xs.getD j d) i _ _ hp
  rw [map_getD_range] at this
  rw [this]
  unfold axisKept
  rw [hp]

theorem takeBools_sublist {α : Type _} (xs : List α) : ∀ bs, (takeBools xs bs).Sublist xs := by
  induction xs with
  | nil => intro bs; simp [takeBools]
  | cons x xs ih =>
    intro bs
    cases bs with
    | nil => simp [takeBools]
    | cons b bs => cases b <;> simp [takeBools, ih]

theorem takeBools_ne_nil {α : Type _} (xs : List α) : ∀ bs, bs.length = xs.length → true ∈ bs → takeBools xs bs ≠ [] := by
  induction xs with
  | nil =>
    intro bs h ht
    cases bs with
    | nil => cases ht
    | cons => cases h
  | cons x xs ih =>
    intro bs h ht
    cases bs with
    | nil => cases ht
    | cons b bs =>
      cases b
      · simp only [takeBools]
        exact ih bs (by simpa using h) (by simpa using ht)
      · simp [takeBools]

theorem filterMap_range_get (n : Nat) (is : List Int) (h : ∀ i ∈ is, 0 ≤ i ∧ i < (n : Int)) :
    is.filterMap (fun i => (List.range n)[i.toNat]?) = is.map Int.toNat := by
  induction is with
  | nil => rfl
  | cons i is ih =>
    have := h i List.mem_cons_self
    rw [List.filterMap_cons, List.getElem?_range (by omega)]
    simp only [List.map_cons]
    rw [ih (fun j hj => h j (List.mem_cons_of_mem _ hj))]

/-- The kept positions are in order, in range and at least one. -/
theorem axisKept_spec (n : Nat) (hn : 0 < n) (i : RawIndex) (h : Orderly n i) :
    (axisKept i n).Pairwise (· < ·) ∧ (∀ j ∈ axisKept i n, j < n) ∧ axisKept i n ≠ [] := by
  have hints : ∀ is : List Int, is ≠ [] → is.Pairwise (· < ·) → (∀ i ∈ is, 0 ≤ i ∧ i < (n : Int)) →
      (is.map Int.toNat).Pairwise (· < ·) ∧ (∀ j ∈ is.map Int.toNat, j < n) ∧ is.map Int.toNat ≠ [] := by
    intro is hne hp hr
    refine ⟨?_, ?_, by simpa using hne⟩
    · rw [List.pairwise_map]
      refine hp.imp_of_mem ?_
      intro a b ha hb hab
      have := hr a ha
      omega
    · intro j hj
      obtain ⟨a, ha, rfl⟩ := List.mem_map.1 hj
      have := hr a ha
      omega
  have hsub : ∀ l : List Nat, l.Sublist (List.range n) → l ≠ [] → l.Pairwise (· < ·) ∧ (∀ j ∈ l, j < n) ∧ l ≠ [] :=
    fun l hl hne => ⟨List.Pairwise.sublist hl List.pairwise_lt_range, fun j hj => List.mem_range.1 (hl.subset hj), hne⟩
  cases i with
  | int i =>
    have hr : ∀ j ∈ [i], 0 ≤ j ∧ j < (n : Int) := by intro j hj; simp at hj; subst hj; exact h
    have e : axisKept (.int i) n = [i].map Int.toNat := by
      unfold axisKept
      simp only [pick]
      rw [takeInts_ok _ _ (by rw [List.length_range]; exact hr), ← filterMap_range_get n [i] hr]
    rw [e]
    exact hints [i] (by simp) (by simp) hr
  | ints is =>
    have e : axisKept (.ints is) n = is.map Int.toNat := by
      unfold axisKept
      simp only [pick]
      rw [takeInts_ok _ _ (by simpa using h.2.2), ← filterMap_range_get n is h.2.2]
    rw [e]
    exact hints is h.1 h.2.1 h.2.2
  | none => exact hsub _ (List.Sublist.refl _) (by simp [axisKept, pick]; omega)
  | bools bs =>
    have e : axisKept (.bools bs) n = takeBools (List.range n) bs := by
      unfold axisKept
      simp only [pick]
      rw [if_neg (by simpa using h.1)]
    rw [e]
    exact hsub _ (takeBools_sublist _ _) (takeBools_ne_nil _ _ (by simpa using h.1) h.2)
  | slice s =>
    rcases h with rfl | ⟨a, b, rfl, h0, h1, h2⟩
    · have e : axisKept (.slice PySlice.all) n = List.range n := by
        unfold axisKept
        simp only [pick, PySlice.get_all]
      rw [e]
      exact hsub _ (List.Sublist.refl _) (by simp; omega)
    · have e : axisKept (.slice ⟨some a, some b⟩) n = ((List.range n).drop a.toNat).take (b - a).toNat := by
        unfold axisKept
        rw [pick_slice_inside _ a b h0 (by omega) (by simpa using h2)]
      rw [e]
      refine hsub _ ((List.take_sublist _ _).trans (List.drop_sublist _ _)) ?_
      intro hnil
      have := congrArg List.length hnil
      simp at this
      omega

/-- Reading along one dimension. -/
theorem read_axis (d : Dim) (n : Nat) (h : RefersTo d n) :
    ∃ f, formatSlice (readIndex d) = .ok f ∧ positions n f = .ok ((sources d).map Int.toNat) := by
  have hne : sources d ≠ [] := by
    have h1 := sources_length d h.aligned h.src
    have h2 := h.pos
    intro he
    rw [he, List.length_nil] at h1
    omega
  have key : ∀ xs : List Int, sources d = xs → readIndex d = .ints xs →
      ∃ f, formatSlice (readIndex d) = .ok f ∧ positions n f = .ok ((sources d).map Int.toNat) := by
    intro xs hx hr
    have hs : Supported (List.range n).length (.ints xs) := by
      rw [List.length_range, ← hx]
      exact ⟨h.within, increasing_shape _ hne h.increasing⟩
    obtain ⟨f, hf, hp⟩ := supported_format (List.range n) (.ints xs) hs
    refine ⟨f, by rw [hr]; exact hf, ?_⟩
    rw [positions_eq, hp]
    simp only [pick]
    rw [takeInts_ok _ _ (by rw [← hx]; simpa using h.within), filterMap_range_get n xs (by rw [← hx]; exact h.within), hx]
  cases hsrc : d.srcIdx with
  | none => exact absurd hsrc h.src
  | some s =>
    cases s with
    | fancy xs => exact key xs (by unfold sources; rw [hsrc]) (by unfold readIndex; rw [hsrc])
    | bounds a b =>
      have hsd : sources d = intRange a b := by unfold sources; rw [hsrc]
      have hab : a < b := by
        apply Classical.byContradiction
        intro hc
        exact hne (by rw [hsd, intRange_empty (by omega)])
      have ha := h.within a (by rw [hsd]; exact mem_intRange.2 ⟨by omega, hab⟩)
      have hb := h.within (b - 1) (by rw [hsd]; exact mem_intRange.2 ⟨by omega, by omega⟩)
      refine ⟨.slice ⟨some a, some b⟩, by unfold readIndex; rw [hsrc]; rfl, ?_⟩
      simp only [positions]
      rw [PySlice.get_inside _ a b (by omega) (by omega) (by simp; omega)]
      rw [← filterMap_range_slice _ a b (by omega) (by simp; omega), filterMap_range_get n _ (by rw [← hsd]; exact h.within), hsd]

theorem refer_cons {d : Dim} {ds : List Dim} {n : Nat} {ns : List Nat} (h : Refer (d :: ds) (n :: ns)) :
    RefersTo d n ∧ Refer ds ns :=
  ⟨h.2 0 d n rfl rfl, by simpa using h.1, fun k d' n' h1 h2 => h.2 (k + 1) d' n' h1 h2⟩

theorem read_all (dims : List Dim) : ∀ shape, Refer dims shape →
    ∃ is, readIndices dims = .ok is ∧ is.length = dims.length ∧
      allPositions is shape = .ok (dims.map fun d => (sources d).map Int.toNat) := by
  induction dims with
  | nil =>
    intro shape h
    cases shape with
    | nil => exact ⟨[], rfl, rfl, rfl⟩
    | cons => cases h.1
  | cons d ds ih =>
    intro shape h
    cases shape with
    | nil => cases h.1
    | cons n ns =>
      obtain ⟨h1, h2⟩ := refer_cons h
      obtain ⟨f, hf, hp⟩ := read_axis d n h1
      obtain ⟨is, e1, e2, e3⟩ := ih ns h2
      refine ⟨f :: is, ?_, by simp [e2], ?_⟩
      · rw [readIndices, hf]; simp only [e1]
      · rw [allPositions, hp, e3]; rfl

theorem through_part (dims : List Dim) : ∀ ix, through (dims.map fun d => (sources d).map Int.toNat) ix =
    dims.zipWith (fun d i => ((sources d).getD i 0).toNat) ix := by
  intro ix
  unfold through
  rw [List.zipWith_map_left]
  congr 1
  funext d i
  simp [List.getD_eq_getElem?_getD, List.getElem?_map]
  cases (sources d)[i]? <;> rfl

/-- Slicing one dimension. -/
theorem slice_dim (d : Dim) (i : RawIndex) (hal : Aligned d) (hpos : 0 < d.len) (ho : Orderly d.len.toNat i) :
    ∃ r, d.getitem i = .ok r ∧ Aligned r ∧ 0 < r.len ∧ r.len.toNat = (axisKept i d.len.toNat).length ∧
      (∀ n, RefersTo d n → RefersTo r n ∧ sources r = (axisKept i d.len.toNat).map fun j => (sources d).getD j 0) := by
  obtain ⟨r, hr, hs⟩ := getitem_supported d i hal hpos (orderly_supported _ _ ho)
  obtain ⟨hp, hlt, hne⟩ := axisKept_spec _ (by omega) i ho
  have hlen : r.len.toNat = (axisKept i d.len.toNat).length := by
    obtain ⟨ys, h1, h2⟩ := hs.lens (List.range d.len.toNat) (by rw [List.length_range]; omega)
    have : axisKept i d.len.toNat = ys := by unfold axisKept; rw [h1]
    rw [this]
    omega
  have hrpos : 0 < r.len := by
    have : 0 < (axisKept i d.len.toNat).length := List.length_pos_iff.2 hne
    omega
  refine ⟨r, hr, hs.aligned, hrpos, hlen, ?_⟩
  intro n h
  obtain ⟨h1, h2⟩ := hs.src h.src
  have hl := sources_length d hal h.src
  have hl' : (sources d).length = d.len.toNat := by omega
  have hsr : sources r = (axisKept i d.len.toNat).map fun j => (sources d).getD j 0 := by
    have := pick_axis (0 : Int) i (sources d) (by rw [hl']; exact ho)
    rw [h2, hl'] at this
    injection this
  refine ⟨⟨h1, hs.aligned, hrpos, ?_, ?_⟩, hsr⟩
  · rw [hsr, List.pairwise_map]
    refine hp.imp_of_mem ?_
    intro a b ha hb hab
    have hb' := hlt b hb
    have := (List.pairwise_iff_getElem.1 h.increasing) a b (by omega) (by omega) hab
    simpa [List.getD_eq_getElem?_getD, List.getElem?_eq_getElem (show a < (sources d).length by omega),
      List.getElem?_eq_getElem (show b < (sources d).length by omega)] using this
  · intro x hx
    rw [hsr] at hx
    obtain ⟨j, hj, rfl⟩ := List.mem_map.1 hx
    have hj' := hlt j hj
    apply h.within
    simp [List.getD_eq_getElem?_getD, List.getElem?_eq_getElem (show j < (sources d).length by omega)]

/-- Slicing all dimensions. -/
theorem slice_dims (dims : List Dim) : ∀ (idx : List RawIndex) (hl : idx.length = dims.length)
    (hd : ∀ d ∈ dims, Aligned d ∧ 0 < d.len)
    (ho : ∀ (k : Nat) i d, idx[k]? = some i → dims[k]? = some d → Orderly d.len.toNat i),
    ∃ ds, sliceDimensions idx dims = .ok ds ∧ ds.length = dims.length ∧ (∀ d ∈ ds, Aligned d ∧ 0 < d.len) ∧
      (ds.map fun d => d.len.toNat) = (idx.zipWith axisKept (dims.map fun d => d.len.toNat)).map List.length ∧
      ∀ shape, Refer dims shape → Refer ds shape ∧
        ds.map sources = (idx.zipWith axisKept (dims.map fun d => d.len.toNat)).zipWith
          (fun p d => p.map fun j => (sources d).getD j 0) dims := by
  induction dims with
  | nil =>
    intro idx hl _ _
    cases idx with
    | nil => exact ⟨[], rfl, rfl, by simp, rfl, fun shape h => ⟨h, rfl⟩⟩
    | cons => cases hl
  | cons d dims ih =>
    intro idx hl hd ho
    cases idx with
    | nil => cases hl
    | cons i idx =>
      obtain ⟨r, h1, h2, h3, h4, h5⟩ := slice_dim d i (hd d List.mem_cons_self).1 (hd d List.mem_cons_self).2 (ho 0 i d rfl rfl)
      obtain ⟨ds, e1, e2, e3, e4, e5⟩ := ih idx (by simpa using hl) (fun x hx => hd x (List.mem_cons_of_mem _ hx))
        (fun k i d h1 h2 => ho (k + 1) i d h1 h2)
      refine ⟨r :: ds, ?_, by simp [e2], ?_, ?_, ?_⟩
      · rw [sliceDimensions, h1]; simp only [e1]
      · intro x hx
        rcases List.mem_cons.1 hx with rfl | hx
        · exact ⟨h2, h3⟩
        · exact e3 x hx
      · simp only [List.map_cons, List.zipWith_cons_cons, e4, h4]
      · intro shape h
        cases shape with
        | nil => cases h.1
        | cons n ns =>
          obtain ⟨g1, g2⟩ := refer_cons h
          obtain ⟨f1, f2⟩ := e5 ns g2
          obtain ⟨f3, f4⟩ := h5 n g1
          refine ⟨⟨by simpa using f1.1, ?_⟩, ?_⟩
          · intro k d' n' h1 h2
            cases k with
            | zero =>
              simp at h1 h2
              subst h1; subst h2
              exact f3
            | succ k => exact f1.2 k d' n' h1 h2
          · simp only [List.map_cons, List.zipWith_cons_cons, f2, f4]

theorem inside_cons {n i : Nat} {shape idx : List Nat} : InsideShape (n :: shape) (i :: idx) ↔ i < n ∧ InsideShape shape idx := by
  constructor
  · intro h
    exact ⟨h.2 0 i n rfl rfl, by simpa using h.1, fun k a b h1 h2 => h.2 (k + 1) a b h1 h2⟩
  · rintro ⟨h1, h2⟩
    refine ⟨by simp [h2.1], ?_⟩
    intro k a b ha hb
    cases k with
    | zero => simp at ha hb; omega
    | succ k => exact h2.2 k a b ha hb

/-- An index into the sliced array is an index into the array. -/
theorem inside_kept (shape : List Nat) : ∀ (idx : List RawIndex) (hl : idx.length = shape.length)
    (ho : ∀ (k : Nat) i n, idx[k]? = some i → shape[k]? = some n → 0 < n ∧ Orderly n i) (ix : List Nat)
    (h : InsideShape ((idx.zipWith axisKept shape).map List.length) ix),
    InsideShape shape ((idx.zipWith axisKept shape).zipWith (fun p i => p.getD i 0) ix) := by
  induction shape with
  | nil =>
    intro idx hl ho ix h
    cases idx with
    | nil => exact ⟨rfl, by intro k i n _ h; simp at h⟩
    | cons => cases hl
  | cons n shape ih =>
    intro idx hl ho ix h
    cases idx with
    | nil => cases hl
    | cons i idx =>
      cases ix with
      | nil => cases h.1
      | cons j ix =>
        simp only [List.zipWith_cons_cons, List.map_cons] at h ⊢
        rw [inside_cons] at h ⊢
        refine ⟨?_, ih idx (by simpa using hl) (fun k a b h1 h2 => ho (k + 1) a b h1 h2) ix h.2⟩
        have h0 := ho 0 i n rfl rfl
        apply (axisKept_spec n h0.1 i h0.2).2.1
        rw [List.getD_eq_getElem?_getD, List.getElem?_eq_getElem h.1]
        simp

/-- Slicing the loaded value. -/
theorem slice_value {α : Type} (a : Arr α) (idx : List RawIndex) (hl : idx.length = a.shape.length)
    (ho : ∀ (k : Nat) i n, idx[k]? = some i → a.shape[k]? = some n → Orderly n i)
    (h1 : ∀ (j k : Nat) x y, idx[j]? = some x → idx[k]? = some y → UsesArray x → UsesArray y → j = k) :
    ∃ fs, formatAll idx = .ok fs ∧ sliceArr fs a.shape a.elem = .ok (npSlice idx a) := by
  have key : ∀ (idx : List RawIndex) (shape : List Nat), idx.length = shape.length →
      (∀ (k : Nat) i n, idx[k]? = some i → shape[k]? = some n → Orderly n i) →
      ∃ fs, formatAll idx = .ok fs ∧ fs.length = idx.length ∧ allPositions fs shape = .ok (idx.zipWith axisKept shape) ∧
        ∀ (k : Nat) i f, idx[k]? = some i → fs[k]? = some f → formatSlice i = .ok f := by
    intro idx
    induction idx with
    | nil =>
      intro shape hl _
      cases shape with
      | nil => exact ⟨[], rfl, rfl, rfl, by intro k i f h; simp at h⟩
      | cons => cases hl
    | cons i idx ih =>
      intro shape hl ho
      cases shape with
      | nil => cases hl
      | cons n shape =>
        have h0 := ho 0 i n rfl rfl
        obtain ⟨f, hf, hp⟩ := supported_format (List.range n) i (by rw [List.length_range]; exact orderly_supported _ _ h0)
        obtain ⟨fs, e1, e2, e3, e4⟩ := ih shape (by simpa using hl) (fun k a b h1 h2 => ho (k + 1) a b h1 h2)
        refine ⟨f :: fs, ?_, by simp [e2], ?_, ?_⟩
        · rw [formatAll, hf]; simp only [e1]
        · have hpk : pick i (List.range n) = .ok (axisKept i n) := by
            have := pick_axis (0 : Nat) i (List.range n) (by rw [List.length_range]; exact h0)
            unfold axisKept
            cases hq : pick i (List.range n) with
            | error e => rw [hq] at this; cases this
            | ok q => rfl
          rw [allPositions, positions_eq, hp, hpk, e3]
          rfl
        · intro k j g hj hg
          cases k with
          | zero => simp at hj hg; subst hj; subst hg; exact hf
          | succ k => exact e4 k j g hj hg
  obtain ⟨fs, e1, e2, e3, e4⟩ := key idx a.shape hl ho
  refine ⟨fs, e1, ?_⟩
  unfold sliceArr
  rw [e3]
  simp only
  rw [if_pos]
  · rfl
  · apply filter_le_one
    intro j k x y hx hy px py
    have hj : j < idx.length := by rw [← e2]; exact (List.getElem?_eq_some_iff.1 hx).1
    have hk : k < idx.length := by rw [← e2]; exact (List.getElem?_eq_some_iff.1 hy).1
    exact h1 j k _ _ (List.getElem?_eq_getElem hj) (List.getElem?_eq_getElem hk)
      (fancy_format _ _ (e4 j _ x (List.getElem?_eq_getElem hj) hx) px)
      (fancy_format _ _ (e4 k _ y (List.getElem?_eq_getElem hk) hy) py)

/-- The unread variable and the array read at the start. -/
structure InStep {α : Type} (file : Arr α) (v : Sourced α) (e : Arr α) : Prop where
  free : v.guarded = false
  dims : ∀ d ∈ v.dims, Aligned d ∧ 0 < d.len
  shape : e.shape = v.dims.map fun d => d.len.toNat
  value : ∀ a, v.value = some a → SameArray a e
  unread : v.value = none → v.loaded = false ∧ Refer v.dims file.shape ∧ SameArray (part file v.dims) e

theorem sameArray_npSlice {α : Type} (a b : Arr α) (h : SameArray a b) (idx : List RawIndex) (hl : idx.length = a.shape.length)
    (ho : ∀ (k : Nat) i n, idx[k]? = some i → a.shape[k]? = some n → 0 < n ∧ Orderly n i) :
    SameArray (npSlice idx a) (npSlice idx b) := by
  refine ⟨by unfold npSlice; rw [h.1], ?_⟩
  intro ix hix
  unfold npSlice at hix ⊢
  simp only at hix ⊢
  rw [← h.1]
  exact h.2 _ (inside_kept a.shape idx hl ho ix hix)

theorem part_slice {α : Type} (file : Arr α) (idx : List RawIndex) (dims ds : List Dim)
    (hl : idx.length = dims.length)
    (hlen : ∀ d ∈ dims, (sources d).length = d.len.toNat)
    (ho : ∀ (k : Nat) i n, idx[k]? = some i → (dims.map fun d => d.len.toNat)[k]? = some n → 0 < n ∧ Orderly n i)
    (hs : ds.map sources = (idx.zipWith axisKept (dims.map fun d => d.len.toNat)).zipWith
          (fun p d => p.map fun j => (sources d).getD j 0) dims) :
    SameArray (part file ds) (npSlice idx (part file dims)) := by
  have hshape : (part file dims).shape = dims.map fun d => d.len.toNat := by
    unfold part
    simp only
    apply List.map_congr_left
    exact hlen
  have key : ∀ (dims ds : List Dim) (idx : List RawIndex), idx.length = dims.length →
      ds.map sources = (idx.zipWith axisKept (dims.map fun d => d.len.toNat)).zipWith
          (fun p d => p.map fun j => (sources d).getD j 0) dims →
      (ds.map fun d => (sources d).length) = (idx.zipWith axisKept (dims.map fun d => d.len.toNat)).map List.length ∧
      ∀ ix, InsideShape (ds.map fun d => (sources d).length) ix →
        ds.zipWith (fun d i => ((sources d).getD i 0).toNat) ix =
        dims.zipWith (fun d i => ((sources d).getD i 0).toNat)
          ((idx.zipWith axisKept (dims.map fun d => d.len.toNat)).zipWith (fun p i => p.getD i 0) ix) := by
    intro dims
    induction dims with
    | nil =>
      intro ds idx hl hs
      simp only [List.zipWith_nil_right, List.map_eq_nil_iff] at hs
      subst hs
      simp
    | cons d dims ih =>
      intro ds idx hl hs
      cases idx with
      | nil => cases hl
      | cons i idx =>
        cases ds with
        | nil => cases hs
        | cons r ds =>
          simp only [List.map_cons, List.zipWith_cons_cons, List.cons.injEq] at hs
          obtain ⟨g1, g2⟩ := ih ds idx (by simpa using hl) hs.2
          refine ⟨by simp only [List.map_cons, List.zipWith_cons_cons, g1, hs.1, List.length_map], ?_⟩
          intro ix hix
          cases ix with
          | nil => cases hix.1
          | cons j ix =>
            rw [List.map_cons, inside_cons] at hix
            simp only [List.map_cons, List.zipWith_cons_cons]
            rw [g2 ix hix.2]
            congr 2
            have hj := hix.1
            rw [hs.1] at hj ⊢
            rw [List.length_map] at hj
            simp [List.getD_eq_getElem?_getD, hj]
  obtain ⟨h1, h2⟩ := key dims ds idx hl hs
  refine ⟨?_, ?_⟩
  · unfold npSlice
    rw [hshape]
    exact h1
  · intro ix hix
    unfold npSlice
    rw [hshape]
    unfold part at hix ⊢
    simp only at hix ⊢
    rw [h2 ix hix]

/-- Slicing keeps step. -/
theorem tracks_slice {α : Type} (file : Arr α) (v : Sourced α) (e : Arr α) (h : InStep file v e) (idx : List RawIndex)
    (hl : idx.length = e.shape.length)
    (ho : ∀ (k : Nat) i n, idx[k]? = some i → e.shape[k]? = some n → Orderly n i)
    (h1 : ∀ (j k : Nat) x y, idx[j]? = some x → idx[k]? = some y → UsesArray x → UsesArray y → j = k) :
    ∃ v', slice idx v = .ok v' ∧ InStep file v' (npSlice idx e) := by
  have hl' : idx.length = v.dims.length := by rw [hl, h.shape, List.length_map]
  have ho' : ∀ (k : Nat) i d, idx[k]? = some i → v.dims[k]? = some d → Orderly d.len.toNat i := by
    intro k i d hi hd
    exact ho k i _ hi (by rw [h.shape, List.getElem?_map, hd]; rfl)
  obtain ⟨ds, e1, e2, e3, e4, e5⟩ := slice_dims v.dims idx hl' h.dims ho'
  have hpos : ∀ (k : Nat) i n, idx[k]? = some i → e.shape[k]? = some n → 0 < n ∧ Orderly n i := by
    intro k i n hi hn
    refine ⟨?_, ho k i n hi hn⟩
    rw [h.shape, List.getElem?_map] at hn
    cases hd : v.dims[k]? with
    | none => rw [hd] at hn; cases hn
    | some d =>
      rw [hd] at hn
      simp only [Option.map_some, Option.some.injEq] at hn
      have := (h.dims d (List.mem_of_getElem? hd)).2
      omega
  have hshape : (npSlice idx e).shape = ds.map fun d => d.len.toNat := by
    unfold npSlice
    simp only
    rw [h.shape, e4]
  unfold slice
  cases hv : v.value with
  | some a =>
    have hs := h.value a hv
    obtain ⟨fs, f1, f2⟩ := slice_value a idx (by rw [hs.1]; exact hl) (by rw [hs.1]; exact ho) h1
    rw [f1]
    simp only [e1, f2]
    refine ⟨_, rfl, h.free, e3, hshape, ?_, ?_⟩
    · intro b hb
      injection hb with hb
      subst hb
      exact sameArray_npSlice a e hs idx (by rw [hs.1]; exact hl) (by rw [hs.1]; exact hpos)
    · intro hb; cases hb
  | none =>
    obtain ⟨u1, u2, u3⟩ := h.unread hv
    obtain ⟨fs, f1, -⟩ := slice_value e idx hl ho h1
    rw [f1]
    simp only [e1]
    refine ⟨_, rfl, h.free, e3, hshape, ?_, ?_⟩
    · intro b hb; cases hb
    · intro _
      obtain ⟨g1, g2⟩ := e5 file.shape u2
      refine ⟨u1, g1, ?_⟩
      have hlen : ∀ d ∈ v.dims, (sources d).length = d.len.toNat := by
        intro d hd
        obtain ⟨k, hk⟩ := List.getElem?_of_mem hd
        have hkl : k < file.shape.length := by rw [← u2.1]; exact (List.getElem?_eq_some_iff.1 hk).1
        have hr := u2.2 k d _ hk (List.getElem?_eq_getElem hkl)
        have := sources_length d hr.aligned hr.src
        have := hr.pos
        omega
      have hps : (part file v.dims).shape = e.shape := u3.1
      have hps' := part_slice file idx v.dims ds hl' hlen (by rw [← h.shape]; exact hpos) g2
      have := sameArray_npSlice (part file v.dims) e u3 idx (by rw [hps]; exact hl) (by rw [hps]; exact hpos)
      exact ⟨hps'.1.trans this.1, fun ix hix => by rw [hps'.2 ix hix, this.2 ix (by rw [← hps'.1]; exact hix)]⟩

/-- Reading gives the part of the file the dimensions refer to. -/
theorem read_part {α : Type} (file : Arr α) (dims : List Dim) (h : Refer dims file.shape) :
    ∃ a, readValue file dims = .ok a ∧ SameArray a (part file dims) := by
  obtain ⟨is, r1, r2, r3⟩ := read_all dims file.shape h
  unfold readValue
  rw [r1]
  cases is with
  | nil =>
    have hd : dims = [] := List.length_eq_zero_iff.1 r2.symm
    subst hd
    have hs : file.shape = [] := List.length_eq_zero_iff.1 h.1.symm
    refine ⟨file, rfl, hs, ?_⟩
    intro ix hix
    rw [hs] at hix
    have : ix = [] := List.length_eq_zero_iff.1 hix.1
    subst this
    rfl
  | cons i is =>
    simp only [r3]
    refine ⟨_, rfl, ?_, ?_⟩
    · unfold part
      simp [Function.comp_def]
    · intro ix hix
      simp only at hix ⊢
      rw [through_part]
      rfl

/-- A dimension without a source index reads its bounds. -/
theorem readIndex_bounds (d : Dim) (h : d.srcIdx = none) :
    readIndex { d with srcIdx := some (.bounds d.boundsLocal.1 d.boundsLocal.2) } = readIndex d := by
  unfold readIndex
  rw [h]

theorem readIndices_bounds (dims : List Dim) (h : ∀ d ∈ dims, d.srcIdx = none) :
    readIndices (dims.map fun d => { d with srcIdx := some (.bounds d.boundsLocal.1 d.boundsLocal.2) }) = readIndices dims := by
  induction dims with
  | nil => rfl
  | cons d ds ih =>
    rw [List.map_cons, readIndices, readIndices, readIndex_bounds d (h d (by simp)), ih fun d hd => h d (by simp [hd])]

theorem intRange_increasing (a b : Int) : (intRange a b).Pairwise (· < ·) := by
  unfold intRange
  rw [List.pairwise_map]
  exact List.pairwise_lt_range.imp (by intro i j h; omega)

theorem read_bounds {α : Type} (file : Arr α) (dims : List Dim) (hl : dims.length = file.shape.length)
    (h : ∀ (k : Nat) d n, dims[k]? = some d → file.shape[k]? = some n →
      d.srcIdx = none ∧ 0 ≤ d.boundsLocal.1 ∧ d.boundsLocal.1 < d.boundsLocal.2 ∧ d.boundsLocal.2 ≤ n ∧
      d.len = d.boundsLocal.2 - d.boundsLocal.1) :
    ∃ a, readValue file dims = .ok a ∧ a.shape = dims.map (fun d => d.len.toNat) ∧
      ∀ ix, InsideShape a.shape ix → a.elem ix = file.elem (dims.zipWith (fun d i => d.boundsLocal.1.toNat + i) ix) := by
  have hget : ∀ d ∈ dims, ∃ n ∈ file.shape, d.srcIdx = none ∧ 0 ≤ d.boundsLocal.1 ∧ d.boundsLocal.1 < d.boundsLocal.2 ∧
      d.boundsLocal.2 ≤ n ∧ d.len = d.boundsLocal.2 - d.boundsLocal.1 := by
    intro d hd
    obtain ⟨k, hk⟩ := List.getElem?_of_mem hd
    have hkl : k < file.shape.length := by rw [← hl]; exact (List.getElem?_eq_some_iff.1 hk).1
    exact ⟨_, List.getElem_mem hkl, h k d _ hk (List.getElem?_eq_getElem hkl)⟩
  have hr : Refer (dims.map fun d => { d with srcIdx := some (.bounds d.boundsLocal.1 d.boundsLocal.2) }) file.shape := by
    refine ⟨by simpa using hl, ?_⟩
    intro k d n hd hn
    rw [List.getElem?_map] at hd
    obtain ⟨e, he, rfl⟩ := Option.map_eq_some_iff.1 hd
    obtain ⟨-, h2, h3, h4, h5⟩ := h k e n he hn
    have hlen : Dim.len { e with srcIdx := some (.bounds e.boundsLocal.1 e.boundsLocal.2) } = e.len := rfl
    refine ⟨by simp, ?_, ?_, ?_, ?_⟩
    · show e.boundsLocal.2 - e.boundsLocal.1 = Dim.len _
      rw [hlen, h5]
    · rw [hlen, h5]; omega
    · exact intRange_increasing _ _
    · intro x hx
      have := mem_intRange.1 hx
      omega
  obtain ⟨a, h1, h2, h3⟩ := read_part file _ hr
  refine ⟨a, ?_, ?_, ?_⟩
  · unfold readValue at h1 ⊢
    rw [readIndices_bounds dims fun d hd => (hget d hd).choose_spec.2.1] at h1
    exact h1
  · rw [h2]
    unfold part
    rw [List.map_map]
    apply List.map_congr_left
    intro d hd
    obtain ⟨n, -, -, -, -, -, h5⟩ := hget d hd
    show (intRange _ _).length = _
    rw [length_intRange, h5]
  · intro ix hix
    rw [h3 ix hix]
    unfold part
    simp only
    congr 1
    rw [h2] at hix
    have hix' : InsideShape (dims.map fun d => (d.boundsLocal.2 - d.boundsLocal.1).toNat) ix := by
      have he : (part file (dims.map fun d => { d with srcIdx := some (.bounds d.boundsLocal.1 d.boundsLocal.2) })).shape =
          dims.map fun d => (d.boundsLocal.2 - d.boundsLocal.1).toNat := by
        unfold part
        rw [List.map_map]
        apply List.map_congr_left
        intro d _
        exact length_intRange _ _
      rw [he] at hix
      exact hix
    have hnn : ∀ d ∈ dims, 0 ≤ d.boundsLocal.1 := fun d hd => (hget d hd).choose_spec.2.2.1
    clear h1 h2 h3 hr hget h hl hix
    induction dims generalizing ix with
    | nil => rfl
    | cons d ds ih =>
      cases ix with
      | nil => rfl
      | cons i ix =>
        rw [List.map_cons, inside_cons] at hix'
        rw [List.map_cons, List.zipWith_cons_cons, List.zipWith_cons_cons, ih ix hix'.2 fun d hd => hnn d (by simp [hd])]
        congr 1
        show ((intRange _ _).getD i 0).toNat = _
        have := hnn d (by simp)
        rw [List.getD_eq_getElem?_getD, getElem?_intRange]
        have hi := hix'.1
        rw [if_pos (by omega)]
        simp only [Option.getD_some]
        omega

/-- Reading keeps step. -/
theorem tracks_force {α : Type} (fill : α) (file : Arr α) (v : Sourced α) (e : Arr α) (h : InStep file v e) :
    ∃ v' a, force fill file v = .ok (v', a) ∧ InStep file v' e ∧ SameArray a e := by
  unfold force
  cases hv : v.value with
  | some a => exact ⟨v, a, rfl, h, h.value a hv⟩
  | none =>
    obtain ⟨u1, u2, u3⟩ := h.unread hv
    obtain ⟨a, hr, hs⟩ := read_part file v.dims u2
    simp only [u1, h.free, Bool.false_eq_true, if_false, hr]
    have hsame : SameArray a e :=
      ⟨hs.1.trans u3.1, fun ix hix => by rw [hs.2 ix hix, u3.2 ix (by rw [← hs.1]; exact hix)]⟩
    refine ⟨_, _, rfl, ⟨rfl, h.dims, h.shape, ?_, ?_⟩, hsame⟩
    · intro b hb
      injection hb with hb
      subst hb
      exact hsame
    · intro hb; cases hb

theorem tracks_load {α : Type} (fill : α) (file : Arr α) (v : Sourced α) (e : Arr α) (h : InStep file v e) :
    ∃ v', load fill file v = .ok v' ∧ InStep file v' e := by
  unfold load
  split
  · exact ⟨v, rfl, h⟩
  · obtain ⟨v', a, h1, h2, -⟩ := tracks_force fill file v e h
    rw [h1]
    exact ⟨v', rfl, h2⟩

/-- A history keeps step. -/
theorem tracks_run {α : Type} (fill : α) (file : Arr α) (acts : List (Act α)) : ∀ (v : Sourced α) (e : Arr α), InStep file v e →
    GoodHistory e.shape acts →
    ∃ outs v', run fill file v acts = .ok (outs, v') ∧ outs.length = (eagerRun e acts).length ∧
      ∀ (k : Nat) a b, outs[k]? = some a → (eagerRun e acts)[k]? = some b → SameArray a b := by
  induction acts with
  | nil => intro v e _ _; exact ⟨[], v, rfl, rfl, by intro k a b h; simp at h⟩
  | cons act acts ih =>
    intro v e h hg
    cases act with
    | slice idx =>
      obtain ⟨g1, g2, g3, g4⟩ := hg
      obtain ⟨v', e1, e2⟩ := tracks_slice file v e h idx g1 g2 g3
      rw [run, e1]
      exact ih v' (npSlice idx e) e2 g4
    | get =>
      obtain ⟨v', a, e1, e2, e3⟩ := tracks_force fill file v e h
      obtain ⟨outs, w, f1, f2, f3⟩ := ih v' e e2 hg
      rw [run, e1]
      simp only [f1]
      refine ⟨a :: outs, w, rfl, by simp [eagerRun, f2], ?_⟩
      intro k x y hx hy
      cases k with
      | zero =>
        simp [eagerRun] at hx hy
        subst hx; subst hy
        exact e3
      | succ k => exact f3 k x y hx hy
    | load =>
      obtain ⟨v', e1, e2⟩ := tracks_load fill file v e h
      rw [run, e1]
      exact ih v' e e2 hg
    | set a =>
      rw [run]
      refine ih _ a ⟨h.free, h.dims, by rw [hg.1, h.shape], ?_, ?_⟩ (by rw [hg.1]; exact hg.2)
      · intro b hb
        injection hb with hb
        subst hb
        exact ⟨rfl, fun _ _ => rfl⟩
      · intro hb; cases hb
    | remove => cases hg

/-- A file variable of six by five elements, and a variable referring to it, already sliced along the second axis. -/
def seaFile : Arr Nat := ⟨[6, 5], fun ix => ix.foldl (fun a i => 10 * a + i) 0⟩

def sea : Sourced Nat :=
  { dims := [⟨"y", some 6, some 6, false, false, none, none, some (.bounds 0 6)⟩,
             ⟨"x", some 3, some 3, false, false, none, none, some (.fancy [0, 2, 4])⟩] }

theorem sea_refers : Refer sea.dims seaFile.shape := by
  refine ⟨rfl, ?_⟩
  intro k d n hd hn
  match k with
  | 0 =>
    injection hd with hd
    injection hn with hn
    subst hd; subst hn
    exact ⟨by decide, by decide, by decide, by decide, by decide⟩
  | 1 =>
    injection hd with hd
    injection hn with hn
    subst hd; subst hn
    exact ⟨by decide, by decide, by decide, by decide, by decide⟩
  | k + 2 => simp [sea] at hd

end Ocgis.Props
