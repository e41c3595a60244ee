import Verif.Model.Broadcast
namespace Ocgis.Array

/-! ### Helpers on swaps -/

theorem swapAt_length {α : Type _} (l : List α) (i j : Nat) : (swapAt l i j).length = l.length := by
  unfold swapAt; split <;> simp

theorem swapAt_get {α : Type _} (l : List α) (i j : Nat) (hi : i < l.length) (hj : j < l.length) (k : Nat) :
    (swapAt l i j)[k]? = if k = i then l[j]? else if k = j then l[i]? else l[k]? := by
  unfold swapAt
  rw [List.getElem?_eq_getElem hi, List.getElem?_eq_getElem hj]
  simp only [List.getElem?_set, List.length_set]
  by_cases h1 : k = i
  · subst h1
    by_cases h2 : j = k
    · subst h2; simp [hi]
    · simp [h2, hi]
  · by_cases h2 : k = j
    · subst h2; simp [h1, hj]
    · simp [h1, h2, Ne.symm h1, Ne.symm h2]

theorem swapAt_swapAt {α : Type _} (l : List α) (i j : Nat) : swapAt (swapAt l i j) i j = l := by
  by_cases hi : i < l.length
  · by_cases hj : j < l.length
    · apply List.ext_getElem?
      intro k
      have e := swapAt_length l i j
      rw [swapAt_get _ _ _ (by omega) (by omega), swapAt_get _ _ _ hi hj, swapAt_get _ _ _ hi hj, swapAt_get _ _ _ hi hj]
      by_cases h1 : k = i
      · subst h1; simp; intro h; rw [h]
      · by_cases h2 : k = j
        · subst h2; simp [h1]
        · simp [h1, h2]
    · have : swapAt l i j = l := by
        unfold swapAt
        rw [List.getElem?_eq_none (Nat.le_of_not_lt hj)]
        cases l[i]? <;> rfl
      rw [this, this]
  · have : swapAt l i j = l := by
      unfold swapAt
      rw [List.getElem?_eq_none (Nat.le_of_not_lt hi)]
    rw [this, this]

theorem swapAt_map {α β : Type _} (f : α → β) (l : List α) (i j : Nat) : swapAt (l.map f) i j = (swapAt l i j).map f := by
  unfold swapAt
  rw [List.getElem?_map, List.getElem?_map]
  cases l[i]? <;> cases l[j]? <;> simp

theorem swapAt_perm {α : Type _} (l : List α) (i j : Nat) (hi : i < l.length) (hj : j < l.length) :
    (swapAt l i j).Perm l := by
  unfold swapAt
  rw [List.getElem?_eq_getElem hi, List.getElem?_eq_getElem hj]
  exact List.set_set_perm hi hj

/-- Carrying out a chain of swaps on a list. -/
def applySwaps {α : Type _} (ops : List (Nat × Nat)) (l : List α) : List α := ops.foldl (fun l s => swapAt l s.1 s.2) l

theorem swapLoop_ok (rest : List String) : ∀ (pre tail : List String), (pre ++ tail).Nodup → tail.Perm rest →
    ∃ ops, swapLoop pre.length (pre ++ tail) rest = .ok ops ∧ applySwaps ops (pre ++ tail) = pre ++ rest ∧
      ∀ s ∈ ops, s.1 < s.2 ∧ s.2 < (pre ++ tail).length := by
  induction rest with
  | nil =>
    intro pre tail _ hp
    have := hp.eq_nil
    subst this
    exact ⟨[], rfl, rfl, by simp⟩
  | cons want rest ih =>
    intro pre tail hn hp
    cases tail with
    | nil => exact absurd hp.symm.eq_nil (by simp)
    | cons h t =>
      unfold swapLoop
      have hk : (pre ++ h :: t)[pre.length]? = some h := by simp
      rw [hk]
      simp only
      by_cases e : h = want
      · subst e
        rw [if_neg (by simp)]
        have h1 : pre ++ h :: t = (pre ++ [h]) ++ t := by simp
        obtain ⟨ops, a, b, c⟩ := ih (pre ++ [h]) t (by rw [← h1]; exact hn) ((List.perm_cons h).1 hp)
        simp only [List.length_append, List.length_cons, List.length_nil, Nat.zero_add] at a
        rw [← h1] at a b c
        exact ⟨ops, a, by rw [b]; simp, c⟩
      · rw [if_pos e]
        have hwt : want ∈ h :: t := hp.mem_iff.2 (by simp)
        have hw : want ∈ pre ++ h :: t := List.mem_append_right _ hwt
        have hnp : want ∉ pre := fun hx => (List.nodup_append.1 hn).2.2 want hx want hwt rfl
        obtain ⟨dst, hd, hdw⟩ : ∃ dst, (pre ++ h :: t).idxOf? want = some dst ∧ (pre ++ h :: t)[dst]? = some want := by
          cases e : (pre ++ h :: t).idxOf? want with
          | none => rw [List.idxOf?_eq_none_iff] at e; exact absurd hw e
          | some k =>
            refine ⟨k, rfl, ?_⟩
            rw [List.idxOf?, List.findIdx?_eq_some_iff_getElem] at e
            obtain ⟨hk, e1, _⟩ := e
            have := eq_of_beq e1
            rw [List.getElem?_eq_getElem hk, this]
        have hdl : dst < (pre ++ h :: t).length := (List.getElem?_eq_some_iff.1 hdw).1
        have hlt : pre.length < dst := by
          rcases Nat.lt_trichotomy pre.length dst with x | x | x
          · exact x
          · subst x; rw [hk] at hdw; cases hdw; exact absurd rfl e
          · rw [List.getElem?_append_left x] at hdw
            exact absurd (List.mem_of_getElem? hdw) hnp
        have hpl : pre.length < (pre ++ h :: t).length := by simp
        rw [hd]
        simp only
        have hR := swapAt_perm (pre ++ h :: t) pre.length dst hpl hdl
        have hget := swapAt_get (pre ++ h :: t) pre.length dst hpl hdl
        have hlen := swapAt_length (pre ++ h :: t) pre.length dst
        generalize hRdef : swapAt (pre ++ h :: t) pre.length dst = R at hR hget hlen
        have hsplit : R = (pre ++ [want]) ++ R.drop (pre.length + 1) := by
          have : R.take (pre.length + 1) = pre ++ [want] := by
            apply List.ext_getElem?
            intro k
            rw [List.getElem?_take]
            by_cases hk' : k < pre.length + 1
            · rw [if_pos hk', hget]
              by_cases h1 : k = pre.length
              · subst h1; rw [if_pos rfl, hdw]; simp
              · rw [if_neg h1, if_neg (by omega), List.getElem?_append_left (by omega), List.getElem?_append_left (by omega)]
            · rw [if_neg hk', List.getElem?_eq_none (by simp; omega)]
          rw [← this, List.take_append_drop]
        have hperm : (R.drop (pre.length + 1)).Perm rest := by
          have h1 : R.Perm (pre ++ want :: rest) := hR.trans (List.Perm.append_left pre hp)
          rw [hsplit, List.append_assoc] at h1
          have h2 := (List.perm_append_left_iff pre).1 h1
          exact (List.perm_cons want).1 h2
        have hnod : R.Nodup := hR.nodup_iff.2 hn
        obtain ⟨ops, a, b, c⟩ := ih (pre ++ [want]) (R.drop (pre.length + 1)) (by rw [← hsplit]; exact hnod) hperm
        rw [← hsplit] at a b c
        simp only [List.length_append, List.length_cons, List.length_nil, Nat.zero_add] at a
        rw [a]
        refine ⟨(pre.length, dst) :: ops, rfl, ?_, ?_⟩
        · simp only [applySwaps, List.foldl_cons, hRdef]
          exact b.trans (by simp)
        · intro s hs
          rcases List.mem_cons.1 hs with h | h
          · subst h; exact ⟨hlt, hdl⟩
          · rw [← hlen]; exact c s h

theorem perm_of_same_members {a b : List String} (ha : a.Nodup) (hb : b.Nodup) (h : ∀ x, x ∈ a ↔ x ∈ b) : a.Perm b :=
  (List.perm_ext_iff_of_nodup ha hb).2 h

theorem swapChain_ok (actual desired : List String) (ha : actual.Nodup) (hp : actual.Perm desired) :
    ∃ ops, swapChain actual desired = .ok ops ∧ applySwaps ops actual = desired ∧
      ∀ s ∈ ops, s.1 < s.2 ∧ s.2 < actual.length := by
  unfold swapChain
  have h1 : (actual.all desired.contains && desired.all actual.contains) = true := by
    simp only [Bool.and_eq_true, List.all_eq_true, List.contains_iff_mem]
    exact ⟨fun x hx => hp.mem_iff.1 hx, fun x hx => hp.mem_iff.2 hx⟩
  rw [h1, if_neg (by simp), if_neg (by rw [hp.length_eq]; omega),
    show desired.take actual.length = desired by rw [hp.length_eq, List.take_length]]
  exact swapLoop_ok desired [] actual (by simpa using ha) hp

/-! ### Carrying a chain of axis swaps through -/

theorem foldl_swapaxes {α : Type _} (ops : List (Nat × Nat)) (a : Arr α) :
    (ops.foldl Arr.swapaxes a).shape = applySwaps ops a.shape ∧
    ∀ idx, (ops.foldl Arr.swapaxes a).elem (applySwaps ops idx) = a.elem idx := by
  induction ops generalizing a with
  | nil => exact ⟨rfl, fun _ => rfl⟩
  | cons s ops ih =>
    obtain ⟨h1, h2⟩ := ih (a.swapaxes s)
    refine ⟨h1, fun idx => ?_⟩
    simp only [List.foldl_cons, applySwaps] at h2 ⊢
    rw [h2]
    simp only [Arr.swapaxes, swapAt_swapAt]

theorem applySwaps_map {α β : Type _} (f : α → β) (ops : List (Nat × Nat)) (l : List α) :
    applySwaps ops (l.map f) = (applySwaps ops l).map f := by
  induction ops generalizing l with
  | nil => rfl
  | cons s ops ih =>
    simp only [applySwaps, List.foldl_cons] at ih ⊢
    rw [swapAt_map, ih]

/-! ### Squeezing and inserting -/

theorem keepIdx_map_filter {α β : Type _} (p : α → Bool) (f : α → β) (l : List α) :
    keepIdx (l.map p) (l.map f) = (l.filter p).map f := by
  induction l with
  | nil => rfl
  | cons a l ih => cases h : p a <;> simp [keepIdx, h, ih]

theorem expandIdx_map {α : Type _} (p : α → Bool) (f : α → Nat) (l : List α) (h0 : ∀ x ∈ l, p x = false → f x = 0) :
    expandIdx (l.map p) ((l.filter p).map f) = l.map f := by
  induction l with
  | nil => rfl
  | cons a l ih =>
    have ih := ih (fun x hx => h0 x (List.mem_cons_of_mem _ hx))
    cases h : p a with
    | true => simp [expandIdx, h, ih]
    | false => simp [expandIdx, h, ih, h0 a (by simp) h]

theorem map_range_getD {β : Type _} (l : List String) (f : String → β) :
    (List.range l.length).map (fun k => f (l.getD k "")) = l.map f := by
  apply List.ext_getElem?
  intro k
  rw [List.getElem?_map, List.getElem?_map]
  by_cases h : k < l.length
  · simp [List.getElem?_range h, List.getElem?_eq_getElem h]
  · rw [List.getElem?_eq_none (by simp; omega), List.getElem?_eq_none (by omega)]; rfl

/-- The positions that are not squeezed, for distinct names. -/
theorem keepMask_squeeze (src : List String) (hs : src.Nodup) (q : String → Bool) :
    keepMask src.length ((src.filter fun n => !q n).map fun t => src.idxOf t) = src.map q := by
  rw [← map_range_getD src q]
  unfold keepMask
  apply List.map_congr_left
  intro k hk
  have hk := List.mem_range.1 hk
  have hg : src.getD k "" = src[k] := by simp [List.getD, List.getElem?_eq_getElem hk]
  rw [hg]
  have : ((src.filter fun n => !q n).map fun t => src.idxOf t).contains k = !q src[k] := by
    rw [Bool.eq_iff_iff, List.contains_iff_mem]
    simp only [List.mem_map, List.mem_filter]
    constructor
    · rintro ⟨t, ⟨ht, hq⟩, rfl⟩
      have hl := List.idxOf_lt_length_of_mem ht
      rw [List.getElem_idxOf hl]; exact hq
    · intro h
      exact ⟨src[k], ⟨List.getElem_mem hk, h⟩, hs.idxOf_getElem k hk⟩
  rw [this]; simp

/-- The positions that are not inserted. -/
theorem keepMask_insert (dst : List String) (q : String → Bool) :
    keepMask dst.length ((List.range dst.length).filter fun k => !q (dst.getD k "")) = dst.map q := by
  rw [← map_range_getD dst q]
  unfold keepMask
  apply List.map_congr_left
  intro k hk
  have : ((List.range dst.length).filter fun k => !q (dst.getD k "")).contains k = !q (dst.getD k "") := by
    rw [Bool.eq_iff_iff, List.contains_iff_mem, List.mem_filter]
    exact ⟨fun h => h.2, fun h => ⟨hk, h⟩⟩
  rw [this]; simp

theorem insertIdx_length (pre l : List Nat) (x : Nat) : (pre ++ l).insertIdx pre.length x = pre ++ x :: l := by
  induction pre with
  | nil => rfl
  | cons a pre ih => simp [ih]

/-- Inserting the missing axes, left to right. -/
theorem insert_shape (q : String → Bool) (f : String → Nat) (rest : List String) : ∀ (pre : List Nat) (k : Nat),
    pre.length = k →
    ((List.range' k rest.length).filter fun j => !q (rest.getD (j - k) "")).foldl (fun s p => s.insertIdx p 1)
      (pre ++ (rest.filter q).map f) = pre ++ rest.map fun n => if q n then f n else 1 := by
  induction rest with
  | nil => intro pre k _; simp
  | cons n rest ih =>
    intro pre k hk
    have tail : (List.range' (k + 1) rest.length).filter (fun j => !q ((n :: rest).getD (j - k) ""))
        = (List.range' (k + 1) rest.length).filter (fun j => !q (rest.getD (j - (k + 1)) "")) := by
      apply List.filter_congr
      intro j hj
      have := (List.mem_range'_1.1 hj).1
      rw [show j - k = (j - (k + 1)) + 1 by omega]
      simp
    have h0 : (n :: rest).getD (k - k) "" = n := by simp
    have hf : (k :: List.range' (k + 1) rest.length).filter (fun j => !q ((n :: rest).getD (j - k) ""))
        = if (!q n) = true then k :: (List.range' (k + 1) rest.length).filter (fun j => !q (rest.getD (j - (k + 1)) ""))
          else (List.range' (k + 1) rest.length).filter (fun j => !q (rest.getD (j - (k + 1)) "")) := by
      rw [List.filter_cons, h0, tail]
    rw [List.length_cons, List.range'_succ, hf]
    cases hq : q n with
    | true =>
      simp only [Bool.not_true, Bool.false_eq_true, if_false]
      have := ih (pre ++ [f n]) (k + 1) (by simp [hk])
      simpa [hq] using this
    | false =>
      simp only [Bool.not_false, if_true, List.foldl_cons]
      have := ih (pre ++ [1]) (k + 1) (by simp [hk])
      have hins : (pre ++ List.map f (List.filter q (n :: rest))).insertIdx k 1 = (pre ++ [1]) ++ (rest.filter q).map f := by
        subst hk
        rw [List.filter_cons_of_neg (by simp [hq])]
        rw [insertIdx_length]
        simp
      rw [hins, this]
      simp [hq]

end Ocgis.Array
