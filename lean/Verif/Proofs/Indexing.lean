import Verif.Proofs.ScatterGather
namespace Ocgis
open Spec Mpi

theorem takeInts_ok {α : Type _} (xs : List α) (idx : List Int) (h : ∀ i ∈ idx, 0 ≤ i ∧ i < (xs.length : Int)) :
    takeInts xs idx = .ok (idx.filterMap fun i => xs[i.toNat]?) := by
  unfold takeInts
  induction idx with
  | nil => rfl
  | cons i idx ih =>
    have hi := h i (by simp)
    rw [List.mapM_cons, ih (fun j hj => h j (by simp [hj]))]
    rw [if_neg (by omega : ¬ i < 0), if_neg (by omega : ¬ i < 0)]
    rw [List.getElem?_eq_getElem (by omega : i.toNat < xs.length)]
    simp only [bind, Except.bind]
    rw [List.filterMap_cons, List.getElem?_eq_getElem (by omega : i.toNat < xs.length)]
    rfl

theorem takeInts_length {α : Type _} (xs : List α) (idx : List Int) (ys : List α) (h : takeInts xs idx = .ok ys) :
    ys.length = idx.length := by
  unfold takeInts at h
  induction idx generalizing ys with
  | nil => injection h with h; subst h; rfl
  | cons i idx ih =>
    rw [List.mapM_cons] at h
    simp only [bind, Except.bind] at h
    split at h
    · cases h
    · split at h
      · cases h
      · next v hv zs hzs =>
        injection h with h
        subst h
        simp [ih _ hzs]

theorem filterMap_range_slice {α : Type _} (xs : List α) (a b : Int) (h0 : 0 ≤ a) (h1 : b ≤ xs.length) :
    (intRange a b).filterMap (fun i => xs[i.toNat]?) = (xs.drop a.toNat).take (b - a).toNat := by
  generalize hk : (b - a).toNat = k
  induction k generalizing a with
  | zero => rw [intRange_empty (by omega)]; simp
  | succ k ih =>
    rw [intRange_cons (by omega), List.filterMap_cons, List.getElem?_eq_getElem (by omega)]
    simp only
    rw [ih (a + 1) (by omega) (by omega)]
    rw [List.drop_eq_getElem_cons (by omega : a.toNat < xs.length), List.take_succ_cons]
    congr 3
    omega

theorem anyGap_iff (xs : List Int) : anyGap xs = true ↔ HasJump xs := by
  induction xs with
  | nil => simp [anyGap, HasJump]
  | cons a t ih =>
    cases t with
    | nil =>
      simp only [anyGap, HasJump]
      constructor
      · intro h; cases h
      · rintro ⟨l, x, y, r, h, _⟩
        have := congrArg List.length h
        simp at this; omega
    | cons b t =>
      simp only [anyGap, Bool.or_eq_true, decide_eq_true_eq]
      rw [ih]
      constructor
      · rintro (h | ⟨l, x, y, r, h, hxy⟩)
        · exact ⟨[], a, b, t, rfl, h⟩
        · exact ⟨a :: l, x, y, r, by rw [h]; rfl, hxy⟩
      · rintro ⟨l, x, y, r, h, hxy⟩
        cases l with
        | nil =>
          simp only [List.nil_append, List.cons.injEq] at h
          left; rw [h.1, h.2.1]; exact hxy
        | cons l0 l =>
          simp only [List.cons_append, List.cons.injEq] at h
          exact Or.inr ⟨l, x, y, r, h.2, hxy⟩

theorem anyGap_intRange (a b : Int) : anyGap (intRange a b) = false := by
  generalize hk : (b - a).toNat = k
  induction k generalizing a with
  | zero => rw [intRange_empty (by omega)]; rfl
  | succ k ih =>
    rw [intRange_cons (by omega)]
    cases k with
    | zero => rw [intRange_empty (by omega)]; rfl
    | succ k =>
      have := ih (a + 1) (by omega)
      rw [intRange_cons (by omega)] at this ⊢
      simp only [anyGap, this, Bool.or_false, decide_eq_false_iff_not]
      omega

theorem optimalSlice_run (a b : Int) (h : a < b) :
    optimalSlice (intRange a b) true = .ok (.slice ⟨some a, some b⟩) := by
  unfold optimalSlice
  rw [anyGap_intRange]
  simp only [Bool.and_false, Bool.false_eq_true, if_false]
  rw [listMin_eq (intRange a b) a (mem_intRange.2 ⟨by omega, h⟩) (fun x hx => (mem_intRange.1 hx).1),
    listMax_eq (intRange a b) (b - 1) (mem_intRange.2 ⟨by omega, by omega⟩)
      (fun x hx => by have := (mem_intRange.1 hx).2; omega)]
  simp only [bind, Except.bind]
  congr 4
  omega

theorem optimalSlice_jump (xs : List Int) (h : HasJump xs) : optimalSlice xs true = .ok (.ints xs) := by
  unfold optimalSlice
  rw [(anyGap_iff xs).2 h]
  rfl

theorem takeBools_length {α : Type _} (xs : List α) (bs : List Bool) (h : bs.length = xs.length) :
    (takeBools xs bs).length = bs.count true := by
  induction xs generalizing bs with
  | nil => cases bs with
    | nil => rfl
    | cons b bs => simp at h
  | cons x xs ih =>
    cases bs with
    | nil => simp at h
    | cons b bs =>
      unfold takeBools
      have := ih bs (by simpa using h)
      cases b <;> simp [this]

theorem whereTrue_shift (bs : List Bool) : ∀ (i c : Int), (whereTrue bs i).map (· + c) = whereTrue bs (i + c) := by
  induction bs with
  | nil => intro i c; rfl
  | cons b bs ih =>
    intro i c
    unfold whereTrue
    have e : i + 1 + c = i + c + 1 := by omega
    cases b <;> simp [ih, e]

theorem takeBools_intRange (bs : List Bool) : ∀ a : Int, takeBools (intRange a (a + bs.length)) bs = whereTrue bs a := by
  induction bs with
  | nil => intro a; rw [intRange_empty (by simp)]; rfl
  | cons b bs ih =>
    intro a
    rw [List.length_cons, intRange_cons (by omega)]
    unfold takeBools whereTrue
    have e : a + ((bs.length + 1 : Nat) : Int) = a + 1 + bs.length := by omega
    rw [e, ih]

theorem takeInts_intRange (a b : Int) (idx : List Int) (h : ∀ i ∈ idx, 0 ≤ i ∧ i < b - a) :
    takeInts (intRange a b) idx = .ok (idx.map (· + a)) := by
  rw [takeInts_ok _ _ (by intro i hi; have := h i hi; rw [length_intRange]; omega)]
  congr 1
  rw [← List.filterMap_eq_map']
  apply filterMap_congr_mem
  intro i hi
  have := h i hi
  rw [getElem?_intRange, if_pos (by omega)]
  congr 1
  omega

theorem listMin_ok (xs : List Int) (h : xs ≠ []) : ∃ m, listMin xs = .ok m ∧ m ∈ xs ∧ ∀ x ∈ xs, m ≤ x := by
  cases xs with
  | nil => exact absurd rfl h
  | cons a t =>
    refine ⟨_, rfl, ?_, ?_⟩
    · rcases foldl_min_mem t a with h | h
      · rw [h]; simp
      · simp [h]
    · intro x hx
      rcases List.mem_cons.1 hx with rfl | hx
      · exact (foldl_min_le t x).1
      · exact (foldl_min_le t a).2 x hx

theorem listMax_ok (xs : List Int) (h : xs ≠ []) : ∃ m, listMax xs = .ok m ∧ m ∈ xs ∧ ∀ x ∈ xs, x ≤ m := by
  cases xs with
  | nil => exact absurd rfl h
  | cons a t =>
    refine ⟨_, rfl, ?_, ?_⟩
    · rcases foldl_max_mem t a with h | h
      · rw [h]; simp
      · simp [h]
    · intro x hx
      rcases List.mem_cons.1 hx with rfl | hx
      · exact (foldl_max_le t x).1
      · exact (foldl_max_le t a).2 x hx

/-- What a supported index does to an aligned dimension. -/
structure Slices (d : Dim) (idx : RawIndex) (r : Dim) : Prop where
  aligned : Aligned r
  nonneg : 0 ≤ r.len
  lens : ∀ {α : Type} (xs : List α), (xs.length : Int) = d.len → ∃ ys, pick idx xs = .ok ys ∧ (ys.length : Int) = r.len
  src : d.srcIdx ≠ none → r.srcIdx ≠ none ∧ pick idx (sources d) = .ok (sources r)
  nosrc : d.srcIdx = none → r.srcIdx = none

theorem pick_slice_inside {α : Type _} (xs : List α) (a b : Int) (h0 : 0 ≤ a) (h1 : a ≤ b) (h2 : b ≤ xs.length) :
    pick (.slice ⟨some a, some b⟩) xs = .ok ((xs.drop a.toNat).take (b - a).toNat) := by
  simp only [pick]
  rw [PySlice.get_inside xs a b h0 h1 h2]

theorem getitem_congr (d : Dim) {i j : RawIndex} (h : formatSlice i = formatSlice j) : d.getitem i = d.getitem j := by
  unfold Dim.getitem; rw [h]

/-- A contiguous range, however written. -/
theorem slices_range (d : Dim) (idx : RawIndex) (a b : Int) (hf : formatSlice idx = .ok (.slice ⟨some a, some b⟩))
    (hpos : 0 < d.len) (hal : Aligned d) (h0 : 0 ≤ a) (h1 : a ≤ b) (h2 : b ≤ d.len)
    (hp : ∀ {α : Type} (xs : List α), (xs.length : Int) = d.len → pick idx xs = .ok ((xs.drop a.toNat).take (b - a).toNat)) :
    ∃ r, d.getitem idx = .ok r ∧ Slices d idx r := by
  obtain ⟨src, e1, e2, e3, e4, e5⟩ := Dim.getitem_slice d a b hal hpos h0 h1 h2
  refine ⟨_, ?_, e2, by rw [Dim.len_resized]; omega, ?_, ?_, e3⟩
  · rw [getitem_congr d (j := .slice ⟨some a, some b⟩) (by rw [hf]; rfl)]; exact e1
  · intro α xs hxs
    refine ⟨_, hp xs hxs, ?_⟩
    rw [Dim.len_resized, List.length_take, List.length_drop]
    omega
  · intro hs
    have hsl := sources_length d hal hs
    refine ⟨e4 hs, ?_⟩
    rw [e5]
    exact hp _ (by omega)

theorem getitem_supported (d : Dim) (idx : RawIndex) (hal : Aligned d) (hpos : 0 < d.len)
    (hsup : Supported d.len.toNat idx) : ∃ r, d.getitem idx = .ok r ∧ Slices d idx r := by
  have hall : ∀ (idx : RawIndex), formatSlice idx = .ok (.slice PySlice.all) →
      (∀ {α : Type} (xs : List α), pick idx xs = .ok xs) → ∃ r, d.getitem idx = .ok r ∧ Slices d idx r := by
    intro idx hf hp
    have hal' : Aligned (d.resized d.len d.srcIdx) := by
      unfold Aligned at hal ⊢; rw [Dim.len_resized]; exact hal
    refine ⟨d.resized d.len d.srcIdx, ?_, hal', by rw [Dim.len_resized]; omega, ?_, ?_, fun h => h⟩
    · rw [Dim.getitem_of_format d idx _ d.srcIdx hpos hf (by unfold Dim.sliceSourceIndex; rw [if_pos rfl])]
      have : Dim.sliceLength d.len (.slice PySlice.all) = d.len := by
        unfold Dim.sliceLength PySlice.all; simp; omega
      rw [this]
      exact Dim.setSize_ok d _ _ hal'
    · intro α xs hxs
      exact ⟨xs, hp xs, by rw [Dim.len_resized]; exact hxs⟩
    · intro hs
      exact ⟨hs, hp _⟩
  cases idx with
  | none => exact hall .none rfl (fun xs => rfl)
  | int i =>
    simp only [Supported] at hsup
    refine slices_range d _ i (i + 1) rfl hpos hal (by omega) (by omega) (by omega) ?_
    intro α xs hxs
    simp only [pick]
    rw [takeInts_ok _ _ (by intro j hj; simp at hj; omega)]
    rw [← filterMap_range_slice xs i (i + 1) (by omega) (by omega), intRange_cons (by omega), intRange_empty (by omega)]
  | slice s =>
    rcases hsup with rfl | ⟨a, b, rfl, h0, h1, h2⟩
    · exact hall _ rfl (fun xs => by simp only [pick]; rw [PySlice.get_all])
    · refine slices_range d _ a b rfl hpos hal h0 h1 (by omega) ?_
      intro α xs hxs
      exact pick_slice_inside xs a b h0 h1 (by omega)
  | ints xs =>
    obtain ⟨hr, hj | ⟨a, b, hab, rfl⟩⟩ := hsup
    · have hf : formatSlice (.ints xs) = .ok (.ints xs) := optimalSlice_jump xs hj
      have hlen : ∀ {α : Type} (ys : List α), (ys.length : Int) = d.len → ∀ i ∈ xs, 0 ≤ i ∧ i < (ys.length : Int) := by
        intro α ys hys i hi; have := hr i hi; omega
      have hsl : Dim.sliceLength d.len (.ints xs) = xs.length := by
        unfold Dim.sliceLength; simp only; omega
      have hlens : ∀ (src), ∀ {α : Type} (ys : List α), (ys.length : Int) = d.len →
          ∃ zs, pick (.ints xs) ys = .ok zs ∧ (zs.length : Int) = (d.resized xs.length src).len := by
        intro src α ys hys
        refine ⟨_, takeInts_ok ys xs (hlen ys hys), ?_⟩
        rw [Dim.len_resized]
        have := takeInts_length ys xs _ (takeInts_ok ys xs (hlen ys hys))
        omega
      match hsrc : d.srcIdx with
      | none =>
        refine ⟨d.resized xs.length none, ?_, trivial, by rw [Dim.len_resized]; omega, hlens none, ?_, fun _ => rfl⟩
        · rw [Dim.getitem_of_format d _ _ none hpos hf (by unfold Dim.sliceSourceIndex; rw [if_neg (by simp), hsrc]), hsl]
          exact Dim.setSize_ok d _ _ trivial
        · intro h; exact absurd hsrc h
      | some (.fancy ys) =>
        have hyl : (ys.length : Int) = d.len := by unfold Aligned at hal; rw [hsrc] at hal; exact hal
        have ht := takeInts_ok ys xs (hlen ys hyl)
        have htl := takeInts_length _ _ _ ht
        have hal' : Aligned (d.resized xs.length (some (.fancy (xs.filterMap fun i => ys[i.toNat]?)))) := by
          unfold Aligned; rw [Dim.len_resized]; simp only [Dim.resized]; omega
        refine ⟨_, ?_, hal', by rw [Dim.len_resized]; omega, hlens _, ?_, fun h => absurd (hsrc.symm.trans h) (by simp)⟩
        · rw [Dim.getitem_of_format d _ _ (some (.fancy (xs.filterMap fun i => ys[i.toNat]?))) hpos hf
            (by unfold Dim.sliceSourceIndex; rw [if_neg (by simp), hsrc]; simp only [ht, bind, Except.bind]), hsl]
          exact Dim.setSize_ok d _ _ hal'
        · intro _
          refine ⟨by simp [Dim.resized], ?_⟩
          have e1 : sources d = ys := by unfold sources; rw [hsrc]
          rw [e1]
          exact ht
      | some (.bounds s e) =>
        have hyl : e - s = d.len := by unfold Aligned at hal; rw [hsrc] at hal; exact hal
        have hal' : Aligned (d.resized xs.length (some (.fancy (xs.map (· + s))))) := by
          unfold Aligned; rw [Dim.len_resized]; simp [Dim.resized]
        refine ⟨_, ?_, hal', by rw [Dim.len_resized]; omega, hlens _, ?_, fun h => absurd (hsrc.symm.trans h) (by simp)⟩
        · rw [Dim.getitem_of_format d _ _ (some (.fancy (xs.map (· + s)))) hpos hf
            (by unfold Dim.sliceSourceIndex; rw [if_neg (by simp), hsrc]), hsl]
          exact Dim.setSize_ok d _ _ hal'
        · intro _
          refine ⟨by simp [Dim.resized], ?_⟩
          have e1 : sources d = intRange s e := by unfold sources; rw [hsrc]
          rw [e1]
          exact takeInts_intRange s e xs (by intro i hi; have := hr i hi; omega)
    · have ha := hr a (mem_intRange.2 ⟨by omega, hab⟩)
      have hb := hr (b - 1) (mem_intRange.2 ⟨by omega, by omega⟩)
      refine slices_range d _ a b (optimalSlice_run a b hab) hpos hal (by omega) (by omega) (by omega) ?_
      intro α xs hxs
      simp only [pick]
      rw [takeInts_ok _ _ (by intro i hi; have := hr i hi; omega), filterMap_range_slice xs a b (by omega) (by omega)]
  | bools bs =>
    simp only [Supported] at hsup
    have hlens : ∀ (src), ∀ {α : Type} (ys : List α), (ys.length : Int) = d.len →
        ∃ zs, pick (.bools bs) ys = .ok zs ∧ (zs.length : Int) = (d.resized (bs.count true : Nat) src).len := by
      intro src α ys hys
      refine ⟨takeBools ys bs, ?_, ?_⟩
      · simp only [pick]; rw [if_neg (by omega)]
      · rw [Dim.len_resized, takeBools_length ys bs (by omega)]
    have hsl : Dim.sliceLength d.len (.bools bs) = (bs.count true : Nat) := by
      unfold Dim.sliceLength; simp only; omega
    match hsrc : d.srcIdx with
    | none =>
      refine ⟨d.resized (bs.count true : Nat) none, ?_, trivial, by rw [Dim.len_resized]; omega, hlens none, ?_, fun _ => rfl⟩
      · rw [Dim.getitem_of_format d _ _ none hpos rfl (by unfold Dim.sliceSourceIndex; rw [if_neg (by simp), hsrc]), hsl]
        exact Dim.setSize_ok d _ _ trivial
      · intro h; exact absurd hsrc h
    | some (.fancy ys) =>
      have hyl : (ys.length : Int) = d.len := by unfold Aligned at hal; rw [hsrc] at hal; exact hal
      have hal' : Aligned (d.resized (bs.count true : Nat) (some (.fancy (takeBools ys bs)))) := by
        unfold Aligned; rw [Dim.len_resized]; simp only [Dim.resized]; rw [takeBools_length ys bs (by omega)]
      refine ⟨_, ?_, hal', by rw [Dim.len_resized]; omega, hlens _, ?_, fun h => absurd (hsrc.symm.trans h) (by simp)⟩
      · rw [Dim.getitem_of_format d _ _ (some (.fancy (takeBools ys bs))) hpos rfl
          (by unfold Dim.sliceSourceIndex; rw [if_neg (by simp), hsrc]; simp only; rw [if_neg (by omega)]), hsl]
        exact Dim.setSize_ok d _ _ hal'
      · intro _
        refine ⟨by simp [Dim.resized], ?_⟩
        have e1 : sources d = ys := by unfold sources; rw [hsrc]
        rw [e1]
        simp only [pick]; rw [if_neg (by omega)]; rfl
    | some (.bounds s e) =>
      have hyl : e - s = d.len := by unfold Aligned at hal; rw [hsrc] at hal; exact hal
      have e1 : sources d = intRange s e := by unfold sources; rw [hsrc]
      have e2 : e = s + bs.length := by omega
      have e3 : (whereTrue bs 0).map (· + s) = takeBools (intRange s e) bs := by
        rw [whereTrue_shift, e2, takeBools_intRange]; simp
      have hal' : Aligned (d.resized (bs.count true : Nat) (some (.fancy ((whereTrue bs 0).map (· + s))))) := by
        unfold Aligned; rw [Dim.len_resized]; simp only [Dim.resized]; rw [e3, takeBools_length _ bs (by rw [length_intRange]; omega)]
      refine ⟨_, ?_, hal', by rw [Dim.len_resized]; omega, hlens _, ?_, fun h => absurd (hsrc.symm.trans h) (by simp)⟩
      · rw [Dim.getitem_of_format d _ _ (some (.fancy ((whereTrue bs 0).map (· + s)))) hpos rfl
          (by unfold Dim.sliceSourceIndex; rw [if_neg (by simp), hsrc]), hsl]
        exact Dim.setSize_ok d _ _ hal'
      · intro _
        refine ⟨by simp [Dim.resized], ?_⟩
        rw [e1]
        simp only [pick]
        rw [if_neg (by rw [length_intRange]; omega), ← e3]; rfl

end Ocgis
