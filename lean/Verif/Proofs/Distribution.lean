import Verif.Spec.Distribution
import Verif.Proofs.Dimension
import Verif.Model.Dist
import Verif.Proofs.Mpi
namespace Ocgis
open Spec

/-- The part of a list starting at global position `s` that lies in `[start, stop)`. -/
def windowOf {α : Type _} (start stop s : Int) (xs : List α) : List α :=
  (xs.drop (start - s).toNat).take ((stop - s).toNat - (start - s).toNat)

theorem windowOf_append {α : Type _} (start stop s : Int) (xs ys : List α) :
    windowOf start stop s (xs ++ ys) = windowOf start stop s xs ++ windowOf start stop (s + xs.length) ys := by
  unfold windowOf
  rw [List.drop_append, List.take_append, List.length_drop]
  congr 1
  have e1 : (start - s).toNat - xs.length = (start - (s + xs.length)).toNat := by omega
  rw [e1]
  congr 1
  omega

theorem distSliceLocal_ok (d : Dim) (s start stop : Int) (hd : d.dist = true) (he : d.isEmpty = false)
    (hpos : 0 < d.len) (hal : Aligned d) (hb : d.boundsLocal = (s, s + d.len)) (hss : start ≤ stop) :
    ∃ r, distSliceLocal d start stop = .ok (r, r.len)
      ∧ r.len = max 0 (min stop (s + d.len) - max start s)
      ∧ r.name = d.name
      ∧ (r.isEmpty = true ↔ (start ≥ s + d.len ∨ stop ≤ s))
      ∧ (r.isEmpty = false → r.boundsLocal = (0, r.len) ∧ Aligned r ∧ (d.srcIdx ≠ none → r.srcIdx ≠ none))
      ∧ (d.srcIdx = none → r.srcIdx = none)
      ∧ (d.srcIdx ≠ none → sources r = windowOf start stop s (sources d)) := by
  unfold distSliceLocal
  rw [he, if_neg (by simp)]
  rw [hb]
  have hsl : d.srcIdx ≠ none → ((sources d).length : Int) = d.len := by
    intro h; have := sources_length d hal h; omega
  by_cases hout : start ≥ s + d.len ∨ stop ≤ s
  · have hg : Mpi.globalToLocal (some start) (some stop) s (s + d.len) = .ok none := by
      unfold Mpi.globalToLocal
      simp only
      rcases hout with h | h
      · rw [if_pos h]
      · rw [if_pos h]; split <;> simp_all
    simp only [hg, bind, Except.bind]
    unfold Dim.convertToEmpty
    rw [hd]
    simp only [Bool.not_true, Bool.false_eq_true, if_false]
    refine ⟨_, rfl, ?_, rfl, by simp [hout], by simp, by simp, ?_⟩
    · simp [Dim.len]; unfold Dim.len at *; omega
    · intro h
      have h1 := hsl h
      simp only [sources]
      unfold windowOf
      rcases hout with h2 | h2
      · rw [List.drop_eq_nil_of_le (by simp only [sources] at h1; omega)]; simp
      · have : (stop - s).toNat - (start - s).toNat = 0 := by omega
        rw [this, List.take_zero]
  · have hg : Mpi.globalToLocal (some start) (some stop) s (s + d.len)
        = .ok (some (max start s - s, min stop (s + d.len) - s)) := by
      unfold Mpi.globalToLocal
      simp only
      rw [if_neg (by omega), if_neg (by omega : ¬ stop ≤ s)]
      have e1 : (if start < s then some s else some start) = some (max start s) := by
        split <;> (congr 1; omega)
      have e2 : (if s + d.len < stop then some (s + d.len) else some stop) = some (min stop (s + d.len)) := by
        split <;> (congr 1; omega)
      rw [e1, e2]
    simp only [hg, bind, Except.bind]
    obtain ⟨src, h1, h2, h3, h3', h4⟩ := Dim.getitem_slice d (max start s - s) (min stop (s + d.len) - s) hal hpos
      (by omega) (by omega) (by omega)
    rw [h1]
    refine ⟨_, rfl, ?_, rfl, ?_, ?_, h3, ?_⟩
    · rw [Dim.len_resized]; omega
    · simp [Dim.resized, he]; omega
    · intro _
      refine ⟨?_, h2, h3'⟩
      show (0, Dim.len _) = (0, _)
      rfl
    · intro h
      rw [h4]
      have h5 := hsl h
      unfold windowOf
      have e1 : (max start s - s).toNat = (start - s).toNat := by omega
      rw [e1]
      apply List.ext_getElem?
      intro j
      rw [List.getElem?_take, List.getElem?_take, List.getElem?_drop]
      by_cases hj : (start - s).toNat + j < (sources d).length
      · grind
      · rw [List.getElem?_eq_none (by omega)]; simp

/-- What is known of every rank after the local slices. -/
structure LocalSlice (start stop : Int) (s : Int) (d r : Dim) : Prop where
  len : r.len = max 0 (min stop (s + d.len) - max start s)
  name : r.name = d.name
  empty : r.isEmpty = true ↔ (start ≥ s + d.len ∨ stop ≤ s)
  live : r.isEmpty = false → r.boundsLocal = (0, r.len) ∧ Aligned r ∧ (d.srcIdx ≠ none → r.srcIdx ≠ none)
  src : d.srcIdx = none → r.srcIdx = none
  sources : d.srcIdx ≠ none → sources r = windowOf start stop s (sources d)

inductive LocalSlices (start stop : Int) : Int → List Dim → List Dim → Prop
  | nil (s) : LocalSlices start stop s [] []
  | cons {s d r ds rs} : LocalSlice start stop s d r → LocalSlices start stop (s + d.len) ds rs →
      LocalSlices start stop s (d :: ds) (r :: rs)

theorem mapM_distSliceLocal (start stop : Int) (hss : start ≤ stop) (ds : List Dim) :
    ∀ s, (∀ d ∈ ds, d.dist = true ∧ d.isEmpty = false ∧ 0 < d.len ∧ Aligned d) → Consecutive s ds →
    ∃ rs, ds.mapM (fun d => distSliceLocal d start stop) = .ok (rs.map fun r => (r, r.len))
      ∧ LocalSlices start stop s ds rs := by
  induction ds with
  | nil => intro s _ _; exact ⟨[], rfl, .nil s⟩
  | cons d ds ih =>
    intro s hl hc
    obtain ⟨h1, h2, h3, h4⟩ := hl d (by simp)
    unfold Consecutive at hc
    rw [h2, if_neg (by simp)] at hc
    obtain ⟨r, e1, e2, e3, e4, e5, e6, e7⟩ := distSliceLocal_ok d s start stop h1 h2 h3 h4 hc.1 hss
    obtain ⟨rs, f1, f2⟩ := ih (s + d.len) (fun x hx => hl x (by simp [hx])) hc.2
    refine ⟨r :: rs, ?_, .cons ⟨e2, e3, e4, e5, e6, e7⟩ f2⟩
    rw [List.mapM_cons, e1]
    simp only [bind, Except.bind, f1]
    rfl

theorem LocalSlices.sources_eq {start stop s : Int} {ds rs : List Dim} (h : LocalSlices start stop s ds rs)
    (hs : ∀ d ∈ ds, d.srcIdx ≠ none ∧ Aligned d ∧ 0 < d.len) :
    rs.flatMap sources = windowOf start stop s (ds.flatMap Spec.sources) := by
  induction h with
  | nil s => simp [windowOf]
  | @cons s d r ds rs h1 h2 ih =>
    obtain ⟨h3, h4, h5⟩ := hs d (by simp)
    rw [List.flatMap_cons, List.flatMap_cons, windowOf_append, h1.sources h3,
      ih (fun x hx => hs x (by simp [hx]))]
    have := sources_length d h4 h3
    congr 2
    omega

theorem normalise_spec (total : Int) (start stop : Int) {s : Int} {ds rs : List Dim}
    (h : LocalSlices start stop s ds rs) : ∀ adjust,
    Consecutive adjust (distSliceNormalise total rs adjust)
      ∧ (distSliceNormalise total rs adjust).flatMap sources = rs.flatMap sources
      ∧ (distSliceNormalise total rs adjust).map (fun d => (d.name, d.len, d.isEmpty, d.srcIdx))
          = rs.map (fun d => (d.name, d.len, d.isEmpty, d.srcIdx))
      ∧ (∀ r ∈ distSliceNormalise total rs adjust, r.isEmpty = false → r.boundsGlobal = (0, total)) := by
  induction h with
  | nil s => intro adjust; simp [distSliceNormalise, Consecutive]
  | @cons s d r ds rs h1 h2 ih =>
    intro adjust
    unfold distSliceNormalise
    by_cases he : r.isEmpty = true
    · rw [if_pos he]
      obtain ⟨i1, i2, i3, i4⟩ := ih adjust
      refine ⟨?_, ?_, ?_, ?_⟩
      · unfold Consecutive; rw [if_pos he]; exact i1
      · rw [List.flatMap_cons, List.flatMap_cons, i2]
      · rw [List.map_cons, List.map_cons, i3]
      · intro x hx hxe
        rcases List.mem_cons.1 hx with rfl | hx
        · simp [he] at hxe
        · exact i4 x hx hxe
    · have he' : r.isEmpty = false := by simpa using he
      rw [if_neg he]
      obtain ⟨i1, i2, i3, i4⟩ := ih (adjust + r.len)
      have hb := (h1.live he').1
      refine ⟨?_, ?_, ?_, ?_⟩
      · unfold Consecutive
        rw [if_neg (by simpa using he)]
        refine ⟨?_, i1⟩
        show (r.boundsLocal.1 + adjust, r.boundsLocal.2 + adjust) = (adjust, adjust + r.len)
        rw [hb]; simp; omega
      · rw [List.flatMap_cons, List.flatMap_cons, i2]; rfl
      · rw [List.map_cons, List.map_cons, i3]; rfl
      · intro x hx hxe
        rcases List.mem_cons.1 hx with rfl | hx
        · rfl
        · exact i4 x hx hxe

theorem LocalSlices.total {start stop s : Int} {ds rs : List Dim} (h : LocalSlices start stop s ds rs)
    (hpos : ∀ d ∈ ds, 0 < d.len) (hss : start ≤ stop) :
    (rs.map (·.len)).sum
      = max 0 (min stop (s + (ds.map (·.len)).sum) - max start s) := by
  have hsum : ∀ ds : List Dim, (∀ d ∈ ds, 0 < d.len) → 0 ≤ (ds.map (·.len)).sum := by
    intro ds
    induction ds with
    | nil => simp
    | cons d ds ih =>
      intro hp
      have := ih (fun x hx => hp x (by simp [hx]))
      have := hp d (by simp)
      simp only [List.map_cons, List.sum_cons]; omega
  induction h with
  | nil s => simp; omega
  | @cons s d r ds rs h1 h2 ih =>
    have hi := ih (fun x hx => hpos x (by simp [hx]))
    have hp := hpos d (by simp)
    have hs := hsum ds (fun x hx => hpos x (by simp [hx]))
    simp only [List.map_cons, List.sum_cons]
    rw [hi, h1.len]
    omega

theorem sum_len_nonneg (ds : List Dim) (hpos : ∀ d ∈ ds, 0 < d.len) : 0 ≤ (ds.map (·.len)).sum := by
  induction ds with
  | nil => simp
  | cons d ds ih =>
    have := ih (fun x hx => hpos x (by simp [hx]))
    have := hpos d (by simp)
    simp only [List.map_cons, List.sum_cons]; omega

theorem LocalSlices.length_eq {start stop s : Int} {ds rs : List Dim} (h : LocalSlices start stop s ds rs) :
    rs.length = ds.length := by
  induction h with
  | nil => rfl
  | cons _ _ ih => simp [ih]

theorem LocalSlices.empty_len {start stop s : Int} {ds rs : List Dim} (h : LocalSlices start stop s ds rs) :
    ∀ r ∈ rs, r.isEmpty = true → r.len = 0 := by
  induction h with
  | nil => intro r hr; cases hr
  | cons h1 _ ih =>
    intro r hr he
    rcases List.mem_cons.1 hr with rfl | hr
    · have := h1.empty.1 he
      rw [h1.len]; omega
    · exact ih r hr he

theorem foldl_add_eq_sum (xs : List Int) : ∀ a, xs.foldl (· + ·) a = a + xs.sum := by
  induction xs with
  | nil => simp
  | cons x xs ih => intro a; simp only [List.foldl_cons, List.sum_cons]; rw [ih]; omega

end Ocgis
