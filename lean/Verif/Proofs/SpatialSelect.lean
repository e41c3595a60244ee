import Verif.Spec.SpatialSelect
import Verif.Proofs.Coords
import Verif.Proofs.Product
/-!
# Lemmas
-/
namespace Ocgis.Props
open Ocgis.Select Ocgis.Spec Ocgis.Coords

theorem foldl_or (l : List Bool) (b : Bool) : l.foldl (· || ·) b = (b || l.any id) := by
  induction l generalizing b with
  | nil => simp
  | cons a l ih => rw [List.foldl_cons, ih, List.any_cons]; simp [Bool.or_assoc]

/-- A cell box no further than `d` from its centre, overlapping a part, has its centre in the expanded part. -/
theorem hint_of_overlap (g : Grid1) (useBounds : Bool) (i j : Nat) (d : Rat) (p : Box)
    (hx : (g.x.getD j 0) - d ≤ (cellBox g useBounds i j).minx ∧ (cellBox g useBounds i j).maxx ≤ (g.x.getD j 0) + d)
    (hy : (g.y.getD i 0) - d ≤ (cellBox g useBounds i j).miny ∧ (cellBox g useBounds i j).maxy ≤ (g.y.getD i 0) + d)
    (ho : Overlap p (cellBox g useBounds i j)) : hint g (p.expand d) i j = true := by
  obtain ⟨o1, o2, o3, o4⟩ := ho
  simp only [hint, Box.expand, Bool.and_eq_true]
  refine ⟨⟨?_, ?_⟩, ?_, ?_⟩ <;> grind

theorem subset_of_hint (limit : Nat) (g : Grid1) (mask : Nat → Nat → Bool) (useBounds : Bool) (parts : List Box)
    (selects : Box → Bool) (r : Rat) (hr : resolution limit g = .ok r)
    (cells : Nat → Nat → Prop)
    (h : ∀ i j, cells i j → selects (cellBox g useBounds i j) = true →
      hintParts g (parts.map fun b => b.expand (r * (5 / 4))) i j = true) :
    ∃ out, subsetMask limit g mask useBounds parts selects = .ok out ∧
      ∀ i j, cells i j → out i j = (mask i j || !selects (cellBox g useBounds i j)) := by
  refine ⟨fun i j => if (mask i j || !hintParts g (parts.map fun b => b.expand (r * (5 / 4))) i j) then true
    else !selects (cellBox g useBounds i j), by unfold subsetMask; rw [hr]; rfl, ?_⟩
  intro i j hij
  cases hs : selects (cellBox g useBounds i j) with
  | false => simp only [hs]; simp
  | true => simp only [hs, h i j hij hs]; simp

theorem absR_nonneg (x : Rat) : 0 ≤ absR x := by unfold absR; split <;> grind

theorem inv_nonneg {x : Rat} (h : 0 ≤ x) : 0 ≤ x⁻¹ := by
  rcases Rat.le_iff_lt_or_eq.1 h with h | h
  · have := Rat.inv_pos.2 h; grind
  · rw [← h]; decide +kernel

theorem sum_nonneg (l : List Rat) (h : ∀ x ∈ l, 0 ≤ x) : 0 ≤ l.sum := by
  induction l with
  | nil => simp
  | cons a l ih =>
    rw [List.sum_cons]
    have h1 := h a (by simp)
    have h2 := ih (fun x hx => h x (by simp [hx]))
    grind

theorem arrayResolution_nonneg (limit : Nat) (v : List Rat) : 0 ≤ arrayResolution limit v := by
  unfold arrayResolution
  split
  · grind
  · unfold mean
    rw [Rat.div_def]
    apply Rat.mul_nonneg
    · apply sum_nonneg
      intro x hx
      obtain ⟨y, _, rfl⟩ := List.mem_map.1 hx
      exact absR_nonneg y
    · exact inv_nonneg (by exact_mod_cast Nat.zero_le _)

theorem resolution_nonneg (limit : Nat) (g : Grid1) (r : Rat) (h : resolution limit g = .ok r) : 0 ≤ r := by
  have h1 := arrayResolution_nonneg limit g.y
  have h2 := arrayResolution_nonneg limit g.x
  unfold resolution at h
  split at h
  · split at h
    · cases h; exact h1
    · split at h
      · cases h; exact h2
      · cases h
  · cases h; grind

theorem take_evenly (a d : Rat) (n k : Nat) : (evenly a d n).take k = evenly a d (min k n) := by
  unfold evenly
  rw [← List.map_take, List.take_range]

theorem map_absR (l : List Rat) (h : ∀ x ∈ l, 0 ≤ x) : l.map absR = l := by
  conv => rhs; rw [← List.map_id l]
  apply List.map_congr_left
  intro x hx
  have := h x hx
  unfold absR
  rw [if_neg (by grind)]
  rfl

theorem arrayResolution_evenly (limit : Nat) (hl : 2 ≤ limit) (a d : Rat) (n : Nat) (hn : 2 ≤ n) (ha : 0 ≤ a) (hd : 0 < d) :
    arrayResolution limit (evenly a d n) = d := by
  have hlen : (evenly a d n).length = n := by simp [evenly]
  have hpos : ∀ x ∈ evenly a d (min limit n), 0 ≤ x := by
    intro x hx
    obtain ⟨i, _, rfl⟩ := List.mem_map.1 hx
    have : (0 : Rat) ≤ (i : Rat) * d := Rat.mul_nonneg (by exact_mod_cast Nat.zero_le i) (by grind)
    grind
  have hget : ∀ m i (hi : i < (evenly a d m).length), (evenly a d m)[i] = a + i * d := by
    intro m i hi; simp [evenly]
  have hd1 : ∀ x ∈ diffs (evenly a d (min limit n)), x = d := by
    apply diffs_const
    intro i hi
    rw [hget, hget]
    have : ((i + 1 : Nat) : Rat) = (i : Rat) + 1 := by simp
    rw [this]
    grind
  unfold arrayResolution
  rw [if_neg (by omega), take_evenly, map_absR _ hpos, map_absR _ (fun x hx => by rw [hd1 x hx]; grind)]
  unfold mean
  rw [sum_const _ d hd1]
  have hl2 := diffs_length (evenly a d (min limit n))
  have : (evenly a d (min limit n)).length = min limit n := by simp [evenly]
  have hne : ((diffs (evenly a d (min limit n))).length : Rat) ≠ 0 := by
    have : (diffs (evenly a d (min limit n))).length ≠ 0 := by omega
    exact_mod_cast this
  grind

theorem linspace_length (a b : Rat) (n : Nat) : (linspace a b n).length = n + 1 := by simp [linspace]

theorem linspace_get (a b : Rat) (n k : Nat) (hk : k ≤ n) : (linspace a b n).getD k 0 = a + (k : Rat) * ((b - a) / (n : Rat)) := by
  simp only [linspace, List.getD_eq_getElem?_getD, List.getElem?_map]
  rw [List.getElem?_range (by omega)]
  rfl

/-- Some interval of the grid contains the point. -/
theorem exists_interval (a w x : Rat) (n : Nat) (h0 : a ≤ x) (h1 : x ≤ a + (n : Rat) * w) (hn : 0 < n) :
    ∃ c, c < n ∧ a + (c : Rat) * w ≤ x ∧ x ≤ a + ((c + 1 : Nat) : Rat) * w := by
  induction n with
  | zero => omega
  | succ n ih =>
    by_cases hx : x ≤ a + (n : Rat) * w
    · by_cases h : n = 0
      · subst h
        exact ⟨0, by omega, by simp at *; grind, by simpa using h1⟩
      · obtain ⟨c, hc, h2, h3⟩ := ih hx (by omega)
        exact ⟨c, by omega, h2, h3⟩
    · exact ⟨n, by omega, by grind, h1⟩

theorem interval_disjoint (a w x : Rat) (hw : 0 ≤ w) (c d : Nat) (hcd : c < d) (h1 : x < a + ((c + 1 : Nat) : Rat) * w)
    (h2 : a + (d : Rat) * w < x) : False := by
  have h3 : ((c + 1 : Nat) : Rat) ≤ (d : Rat) := by exact_mod_cast hcd
  have h4 := Rat.mul_le_mul_of_nonneg_right h3 hw
  grind

theorem width_ok (a b : Rat) (n : Nat) (hn : 0 < n) (hab : a ≤ b) :
    0 ≤ (b - a) / (n : Rat) ∧ a + (n : Rat) * ((b - a) / (n : Rat)) = b := by
  have hn0 : (0 : Rat) < (n : Rat) := by exact_mod_cast hn
  constructor
  · rw [Rat.div_def]
    apply Rat.mul_nonneg (by grind)
    exact inv_nonneg (by grind)
  · have : (n : Rat) ≠ 0 := by grind
    grind

theorem mem_split {cols rows : List Rat} {p : Box} : p ∈ splitFromVectors cols rows ↔
    ∃ r c, r < rows.length - 1 ∧ c < cols.length - 1 ∧
      p = ⟨cols.getD c 0, rows.getD r 0, cols.getD (c + 1) 0, rows.getD (r + 1) 0⟩ := by
  simp only [splitFromVectors, List.mem_flatMap, List.mem_map, List.mem_range]
  constructor
  · rintro ⟨r, hr, c, hc, rfl⟩; exact ⟨r, c, hr, hc, rfl⟩
  · rintro ⟨r, c, hr, hc, rfl⟩; exact ⟨r, hr, c, hc, rfl⟩

theorem decompositionLoop_none (n : Nat) (l : List Box) : decompositionLoop none n l = l := by
  induction l generalizing n with
  | nil => rfl
  | cons a l ih => simp only [decompositionLoop, ih]

end Ocgis.Props
