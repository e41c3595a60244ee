import Verif.Spec.GeomSelect
import Verif.Props.Broadcast
/-!
# Lemmas about selecting by a geometry
-/
namespace Ocgis.GeomSelect
open Ocgis

/-! ## Flat arrays -/

theorem flat_length {α : Type} (n m : Nat) (f : Nat → Nat → α) : (flat n m f).length = n * m := by simp [flat]

theorem flat_get {α : Type} (n m : Nat) (f : Nat → Nat → α) (k : Nat) (h : k < n * m) :
    (flat n m f)[k]? = some (f (k / m) (k % m)) := by
  simp [flat, List.getElem?_range h]

theorem pos_lt {n m r c : Nat} (hr : r < n) (hc : c < m) : r * m + c < n * m := by
  calc r * m + c < r * m + m := by omega
    _ = (r + 1) * m := by rw [Nat.add_mul, Nat.one_mul]
    _ ≤ n * m := Nat.mul_le_mul_right m hr

theorem pos_div {m r c : Nat} (hc : c < m) : (r * m + c) / m = r := by
  rw [Nat.mul_comm, Nat.mul_add_div (by omega), Nat.div_eq_of_lt hc, Nat.add_zero]

theorem pos_mod {m r c : Nat} (hc : c < m) : (r * m + c) % m = c := by
  rw [Nat.mul_comm, Nat.mul_add_mod, Nat.mod_eq_of_lt hc]

theorem mem_globalIndex (mask : List Bool) (k : Nat) :
    k ∈ globalIndex mask ↔ k < mask.length ∧ mask.getD k true = false := by
  simp [globalIndex]

theorem foldl_set_false (f : Nat → Nat) : ∀ (ks : List Nat) (l : List Bool) (j : Nat), j < l.length →
    (ks.foldl (fun a k => a.set (f k) false) l).getD j true = (l.getD j true && !ks.any fun k => f k == j)
  | [], l, j, h => by simp
  | k :: ks, l, j, h => by
    rw [List.foldl_cons, foldl_set_false f ks _ j (by simpa using h)]
    simp only [List.getD_eq_getElem?_getD, List.getElem?_set, List.any_cons]
    by_cases e : f k = j
    · simp [e, h]
    · have : (f k == j) = false := by simpa using e
      simp [e, this]

theorem foldl_set_val (h : Nat → Bool) : ∀ (ks : List Nat) (l : List Bool) (j : Nat), j < l.length →
    (ks.foldl (fun a k => a.set k (h k)) l).getD j true = if j ∈ ks then h j else l.getD j true
  | [], l, j, _ => by simp
  | k :: ks, l, j, hj => by
    rw [List.foldl_cons, foldl_set_val h ks _ j (by simpa using hj)]
    simp only [List.getD_eq_getElem?_getD, List.getElem?_set, List.mem_cons]
    by_cases e : k = j
    · subst e; simp [hj]
    · by_cases e' : j ∈ ks
      · simp [e']
      · simp [e', e, Ne.symm e]

theorem foldl_zipIdx {G : Type} (ex : G → Bool) (vals : Nat → G) (ks : List Nat) :
    ∀ (rest : List Nat) (n : Nat) (l : List Bool), (∀ i, ks[n + i]? = rest[i]?) →
    (((rest.map vals).zipIdx n)).foldl (fun f xk => f.set (ks.getD xk.2 0) (ex xk.1)) l
      = rest.foldl (fun a k => a.set k (ex (vals k))) l
  | [], n, l, _ => rfl
  | k :: rest, n, l, h => by
    have h0 : ks[n]? = some k := by simpa using h 0
    simp only [List.map_cons, List.zipIdx_cons, List.foldl_cons]
    rw [foldl_zipIdx ex vals ks rest (n + 1)]
    · simp [h0]
    · intro i
      have := h (i + 1)
      rw [show n + 1 + i = n + (i + 1) by omega]
      simpa using this

/-- The geometries that are tested. -/
theorem target_eq {G : Type} (v : GVar G) (mask : List Bool) (hl : mask.length = v.nrow * v.ncol) :
    ((globalIndex mask).filterMap fun k => (flat v.nrow v.ncol v.geom)[k]?)
      = (globalIndex mask).map fun k => v.geom (k / v.ncol) (k % v.ncol) := by
  have h : ∀ k ∈ globalIndex mask, (flat v.nrow v.ncol v.geom)[k]? = some (v.geom (k / v.ncol) (k % v.ncol)) := by
    intro k hk
    exact flat_get _ _ _ _ (by rw [← hl]; exact ((mem_globalIndex _ _).mp hk).1)
  generalize globalIndex mask = ks at h ⊢
  induction ks with
  | nil => rfl
  | cons k ks ih =>
    rw [List.filterMap_cons, h k (by simp), List.map_cons, ih (fun k hk => h k (by simp [hk]))]

theorem getD_map_true (l : List Bool) (j : Nat) : (l.map fun _ => true).getD j true = true := by
  simp only [List.getD_eq_getElem?_getD, List.getElem?_map]
  cases l[j]? <;> rfl

/-- The mask of `get_mask_from_intersects` without an index. -/
theorem mask_plain {G : Type} (s : Shapely G) (v : GVar G) (g : G) (keep : Bool) (o : Option (Nat → Nat → Bool))
    (r c : Nat) (hr : r < v.nrow) (hc : c < v.ncol) :
    maskFromIntersects s v g false keep o r c = ((o.getD v.masked) r c || excluded s g keep (v.geom r c)) := by
  have hk := pos_lt hr hc
  unfold maskFromIntersects unflat
  simp only [Bool.false_eq_true, if_false]
  rw [target_eq v _ (flat_length _ _ _), foldl_zipIdx (excluded s g keep) _ _ _ 0 _ (by intro i; simp),
    foldl_set_val (fun k => excluded s g keep (v.geom (k / v.ncol) (k % v.ncol))) _ _ _ (by simpa [flat_length] using hk),
    getD_map_true]
  simp only [mem_globalIndex, flat_length, hk, true_and, List.getD_eq_getElem?_getD, flat_get _ _ _ _ hk,
    Option.getD_some, pos_div hc, pos_mod hc]
  cases (o.getD v.masked) r c <;> simp

/-- The mask with an index. -/
theorem mask_index {G : Type} (s : Shapely G) (v : GVar G) (g : G) (keep : Bool) (o : Option (Nat → Nat → Bool))
    (r c : Nat) (hr : r < v.nrow) (hc : c < v.ncol)
    (hrt : ∀ l g k x, l[k]? = some x → s.intersects g x = true → k ∈ s.rtree l g) :
    maskFromIntersects s v g true keep o r c
      = ((o.getD v.masked) r c || !((s.parts g).getD [g]).any fun p => selects s p keep (v.geom r c)) := by
  have hk := pos_lt hr hc
  unfold maskFromIntersects unflat
  simp only [if_true]
  rw [target_eq v _ (flat_length _ _ _), foldl_set_false _ _ _ _ (by simpa [flat_length] using hk), getD_map_true]
  simp only [Bool.true_and]
  generalize hix : globalIndex (flat v.nrow v.ncol (o.getD v.masked)) = index
  have hmem : ∀ k, k ∈ index ↔ k < v.nrow * v.ncol ∧ (o.getD v.masked) (k / v.ncol) (k % v.ncol) = false := by
    intro k
    rw [← hix, mem_globalIndex, flat_length]
    constructor
    · rintro ⟨h1, h2⟩
      refine ⟨h1, ?_⟩
      simpa [List.getD_eq_getElem?_getD, flat_get _ _ _ _ h1] using h2
    · rintro ⟨h1, h2⟩
      refine ⟨h1, ?_⟩
      simpa [List.getD_eq_getElem?_getD, flat_get _ _ _ _ h1] using h2
  rw [Bool.eq_iff_iff]
  simp only [Bool.not_eq_true', List.any_eq_false, Bool.or_eq_true, beq_iff_eq]
  constructor
  · intro h
    cases hm : (o.getD v.masked) r c with
    | true => exact Or.inl rfl
    | false =>
      right
      intro p hp hs
      have hin : r * v.ncol + c ∈ index := (hmem _).mpr ⟨hk, by rw [pos_div hc, pos_mod hc]; exact hm⟩
      obtain ⟨i, hi⟩ := List.getElem?_of_mem hin
      refine h i ?_ (by simp [hi])
      unfold indexIntersects
      simp only [List.mem_flatMap, List.mem_filter]
      have hx : (index.map fun k => v.geom (k / v.ncol) (k % v.ncol))[i]? = some (v.geom r c) := by
        rw [List.getElem?_map, hi]; simp [pos_div hc, pos_mod hc]
      refine ⟨p, hp, hrt _ _ _ _ hx ?_, ?_⟩
      · unfold selects at hs; simp only [Bool.and_eq_true] at hs; exact hs.1
      · rw [hx]; exact hs
  · intro h k hk' he
    unfold indexIntersects at hk'
    simp only [List.mem_flatMap, List.mem_filter] at hk'
    obtain ⟨p, hp, -, hs⟩ := hk'
    cases hi : index[k]? with
    | none =>
      have : (index.map fun k => v.geom (k / v.ncol) (k % v.ncol))[k]? = none := by rw [List.getElem?_map, hi]; rfl
      rw [this] at hs
      exact absurd hs (by simp)
    | some j =>
      rw [List.getD_eq_getElem?_getD, hi, Option.getD_some] at he
      subst he
      have hx : (index.map fun k => v.geom (k / v.ncol) (k % v.ncol))[k]? = some (v.geom r c) := by
        rw [List.getElem?_map, hi]; simp [pos_div hc, pos_mod hc]
      rw [hx] at hs
      have hin := (hmem _).mp (List.mem_of_getElem? hi)
      rw [pos_div hc, pos_mod hc] at hin
      rcases h with h | h
      · rw [hin.2] at h; exact absurd h (by simp)
      · exact h p hp hs

theorem not_excluded {G : Type} (s : Shapely G) (g : G) (keep : Bool) (x : G) :
    excluded s g keep x = false ↔ Chosen s g keep x := by
  unfold excluded Chosen
  cases s.intersects g x <;> cases keep <;> cases s.touches g x <;> simp

theorem selects_iff {G : Type} (s : Shapely G) (g : G) (keep : Bool) (x : G) :
    selects s g keep x = true ↔ Chosen s g keep x := by
  unfold selects Chosen
  cases s.intersects g x <;> cases keep <;> cases s.touches g x <;> simp

theorem parts_selects {G : Type} (s : Shapely G) (inner : G → G → Bool) (hl : Lawful s inner) (g : G) (keep : Bool)
    (hg : keep = true ∨ PartsAgree s inner g) (x : G) :
    (((s.parts g).getD [g]).any fun p => selects s p keep x) = selects s g keep x := by
  cases hp : s.parts g with
  | none => simp
  | some ps =>
    simp only [Option.getD_some]
    have h1 := hl.parts g ps hp x
    cases keep with
    | true =>
      unfold selects
      simp [h1]
    | false =>
      rcases hg with hg | hg
      · exact absurd hg (by simp)
      have h2 := hg ps hp x
      have key : ∀ p, selects s p false x = inner p x := by
        intro p
        unfold selects
        rw [hl.touches]
        have := hl.inner_meets p x
        cases hi : inner p x <;> cases hm : s.intersects p x <;> simp_all
      simp only [key, h2]

/-! ## The slice -/

theorem at2_rows (n m : Nat) (f : Nat → Nat → Bool) (i j : Nat) (x : Bool) :
    Props.at2 ((List.range n).map fun r => (List.range m).map fun c => f r c) i j = some x
      ↔ i < n ∧ j < m ∧ f i j = x := by
  unfold Props.at2
  by_cases hi : i < n
  · by_cases hj : j < m
    · simp [hi, hj]
    · simp [hi, hj]
  · simp [hi]

theorem all_rows (n m : Nat) (f : Nat → Nat → Bool) :
    (((List.range n).map fun r => (List.range m).map fun c => f r c).all fun row => row.all id) = true
      ↔ ∀ r c, r < n → c < m → f r c = true := by
  simp only [List.all_eq_true, List.mem_map, List.mem_range, id]
  constructor
  · intro h r c hr hc
    exact h _ ⟨r, hr, rfl⟩ _ (by simp only [List.mem_map, List.mem_range]; exact ⟨c, hc, rfl⟩)
  · rintro h row ⟨r, hr, rfl⟩ x hx
    simp only [List.mem_map, List.mem_range] at hx
    obtain ⟨c, hc, rfl⟩ := hx
    exact h r c hr hc

theorem any_rows (n m : Nat) (f : Nat → Nat → Bool) :
    (((List.range n).map fun r => (List.range m).map fun c => f r c).any fun row => row.any id) = true
      ↔ ∃ r c, r < n ∧ c < m ∧ f r c = true := by
  simp only [List.any_eq_true, List.mem_map, List.mem_range, id]
  constructor
  · rintro ⟨row, ⟨r, hr, rfl⟩, x, hx, h⟩
    simp only [List.mem_map, List.mem_range] at hx
    obtain ⟨c, hc, rfl⟩ := hx
    exact ⟨r, c, hr, hc, h⟩
  · rintro ⟨r, c, hr, hc, h⟩
    exact ⟨_, ⟨r, hr, rfl⟩, _, by simp only [List.mem_map, List.mem_range]; exact ⟨c, hc, rfl⟩, h⟩

/-- A rectangle with a good position on each border. -/
structure Tight (q : Rect) (P : Nat → Nat → Prop) : Prop where
  top : ∃ c, q.Has q.r0 c ∧ P q.r0 c
  bottom : ∃ c, q.Has (q.r1 - 1) c ∧ P (q.r1 - 1) c
  left : ∃ r, q.Has r q.c0 ∧ P r q.c0
  right : ∃ r, q.Has r (q.c1 - 1) ∧ P r (q.c1 - 1)

theorem localSlice_spec (oneD : Bool) (n m : Nat) (f : Nat → Nat → Bool)
    (hne : ∃ r c, r < n ∧ c < m ∧ f r c = false)
    (hok : oneD = false ∨ ∃ r c, r < n ∧ c < m ∧ f r c = true) :
    ∃ q, localSlice oneD n m f = .ok (some q) ∧ q.r0 < q.r1 ∧ q.r1 ≤ n ∧ q.c0 < q.c1 ∧ q.c1 ≤ m ∧
      (∀ r c, r < n → c < m → f r c = false → q.Has r c) ∧ Tight q fun r c => r < n ∧ c < m ∧ f r c = false := by
  obtain ⟨r, c, hr, hc, hf⟩ := hne
  unfold localSlice
  rw [if_neg (by rw [all_rows]; intro h; rw [h r c hr hc] at hf; cases hf)]
  by_cases hany : ∃ r c, r < n ∧ c < m ∧ f r c = true
  · rw [if_neg (by rw [(any_rows n m f).mpr hany]; simp)]
    obtain ⟨out, r0, r1, c0, c1, heq, h1, h2, h3, h4, h5, h6, h7, h8, h9, h10, h11, h12⟩ :=
      Props.C17_trim id m ((List.range n).map fun r => (List.range m).map fun c => f r c)
        (by intro row hrow; simp only [List.mem_map] at hrow; obtain ⟨a, -, rfl⟩ := hrow; simp)
        ⟨r, c, false, (at2_rows n m f r c false).mpr ⟨hr, hc, hf⟩, rfl⟩
    have hn : r1 ≤ n := by simpa using h2
    have hrow : ∀ i j x, Props.at2 out i j = some x → i < r1 - r0 ∧ j < c1 - c0 := by
      intro i j x hx
      unfold Props.at2 at hx
      cases hi : out[i]? with
      | none => rw [hi] at hx; cases hx
      | some row =>
        rw [hi] at hx
        have hi' := (List.getElem?_eq_some_iff.mp hi).1
        have hj' := (List.getElem?_eq_some_iff.mp hx).1
        rw [h6 row (List.mem_of_getElem? hi)] at hj'
        exact ⟨by omega, hj'⟩
    have hback : ∀ i j x, Props.at2 out i j = some x → id x = false →
        (r0 + i < r1 ∧ c0 + j < c1) ∧ r0 + i < n ∧ c0 + j < m ∧ f (r0 + i) (c0 + j) = false := by
      intro i j x hx hfx
      obtain ⟨hi, hj⟩ := hrow i j x hx
      rw [h7 i j hi hj] at hx
      have := (at2_rows n m f _ _ _).mp hx
      refine ⟨⟨by omega, by omega⟩, this.1, this.2.1, ?_⟩
      rw [this.2.2]; exact hfx
    refine ⟨⟨r0, r1, c0, c1⟩, by rw [heq], h1, hn, h3, h4, ?_, ⟨?_, ?_, ?_, ?_⟩⟩
    · intro r c hr hc hf
      exact h8 r c false ((at2_rows n m f r c false).mpr ⟨hr, hc, hf⟩) rfl
    · obtain ⟨j, x, hx, hfx⟩ := h9
      have := hback 0 j x hx hfx
      exact ⟨c0 + j, by unfold Rect.Has; simp only; omega, by simpa using this.2⟩
    · obtain ⟨j, x, hx, hfx⟩ := h10
      have := hback _ j x hx hfx
      rw [show r0 + (r1 - r0 - 1) = r1 - 1 by omega] at this
      exact ⟨c0 + j, by unfold Rect.Has; simp only; omega, this.2⟩
    · obtain ⟨i, x, hx, hfx⟩ := h11
      have := hback i 0 x hx hfx
      exact ⟨r0 + i, by unfold Rect.Has; simp only; omega, by simpa using this.2⟩
    · obtain ⟨i, x, hx, hfx⟩ := h12
      have := hback i _ x hx hfx
      rw [show c0 + (c1 - c0 - 1) = c1 - 1 by omega] at this
      exact ⟨r0 + i, by unfold Rect.Has; simp only; omega, this.2⟩
  · have hone : oneD = false := by
      rcases hok with h | h
      · exact h
      · exact absurd h hany
    have hall : ∀ r c, r < n → c < m → f r c = false := by
      intro r c hr hc
      cases h : f r c with
      | false => rfl
      | true => exact absurd ⟨r, c, hr, hc, h⟩ hany
    have hany' : (((List.range n).map fun r => (List.range m).map fun c => f r c).any fun row => row.any id) = false := by
      cases h : (((List.range n).map fun r => (List.range m).map fun c => f r c).any fun row => row.any id) with
      | false => rfl
      | true => exact absurd ((any_rows n m f).mp h) hany
    simp only [hany', Bool.not_false, if_true, hone, Bool.false_eq_true, if_false]
    refine ⟨⟨0, n, 0, m⟩, rfl, by simp; omega, by simp, by simp; omega, by simp, ?_, ⟨?_, ?_, ?_, ?_⟩⟩
    · intro r c hr hc _; unfold Rect.Has; simp; omega
    · exact ⟨0, by unfold Rect.Has; simp; omega, by simp only; exact ⟨by omega, by omega, hall _ _ (by omega) (by omega)⟩⟩
    · exact ⟨0, by unfold Rect.Has; simp; omega, by simp only; exact ⟨by omega, by omega, hall _ _ (by omega) (by omega)⟩⟩
    · exact ⟨0, by unfold Rect.Has; simp; omega, by simp only; exact ⟨by omega, by omega, hall _ _ (by omega) (by omega)⟩⟩
    · exact ⟨0, by unfold Rect.Has; simp; omega, by simp only; exact ⟨by omega, by omega, hall _ _ (by omega) (by omega)⟩⟩

theorem localSlice_none (oneD : Bool) (n m : Nat) (f : Nat → Nat → Bool) (h : ∀ r c, r < n → c < m → f r c = true) :
    localSlice oneD n m f = .ok none := by
  unfold localSlice
  rw [if_pos ((all_rows n m f).mpr h)]

/-! ## Several processes -/

theorem mapM_ok {α β : Type} (f : α → Res β) (g : α → β) :
    ∀ l : List α, (∀ x ∈ l, f x = .ok (g x)) → l.mapM f = .ok (l.map g)
  | [], _ => rfl
  | x :: l, h => by
    rw [List.mapM_cons, h x (by simp), mapM_ok f g l (fun y hy => h y (by simp [hy]))]
    rfl

theorem hull_tight {a b : Rect} {P : Nat → Nat → Prop} (ha : a.r0 < a.r1 ∧ a.c0 < a.c1) (hb : b.r0 < b.r1 ∧ b.c0 < b.c1)
    (ta : Tight a P) (tb : Tight b P) :
    ((hull a b).r0 < (hull a b).r1 ∧ (hull a b).c0 < (hull a b).c1) ∧ Tight (hull a b) P ∧
      (∀ r c, a.Has r c ∨ b.Has r c → (hull a b).Has r c) := by
  have hcon : ∀ r c, a.Has r c ∨ b.Has r c → (hull a b).Has r c := by
    intro r c h
    unfold Rect.Has hull at *
    simp only
    omega
  refine ⟨by unfold hull; simp only; omega, ⟨?_, ?_, ?_, ?_⟩, hcon⟩
  · by_cases h : a.r0 ≤ b.r0
    · obtain ⟨c, h1, h2⟩ := ta.top
      have e : (hull a b).r0 = a.r0 := by unfold hull; simp only; omega
      rw [e]; exact ⟨c, hcon _ _ (Or.inl h1), h2⟩
    · obtain ⟨c, h1, h2⟩ := tb.top
      have e : (hull a b).r0 = b.r0 := by unfold hull; simp only; omega
      rw [e]; exact ⟨c, hcon _ _ (Or.inr h1), h2⟩
  · by_cases h : b.r1 ≤ a.r1
    · obtain ⟨c, h1, h2⟩ := ta.bottom
      have e : (hull a b).r1 = a.r1 := by unfold hull; simp only; omega
      rw [e]; exact ⟨c, hcon _ _ (Or.inl h1), h2⟩
    · obtain ⟨c, h1, h2⟩ := tb.bottom
      have e : (hull a b).r1 = b.r1 := by unfold hull; simp only; omega
      rw [e]; exact ⟨c, hcon _ _ (Or.inr h1), h2⟩
  · by_cases h : a.c0 ≤ b.c0
    · obtain ⟨c, h1, h2⟩ := ta.left
      have e : (hull a b).c0 = a.c0 := by unfold hull; simp only; omega
      rw [e]; exact ⟨c, hcon _ _ (Or.inl h1), h2⟩
    · obtain ⟨c, h1, h2⟩ := tb.left
      have e : (hull a b).c0 = b.c0 := by unfold hull; simp only; omega
      rw [e]; exact ⟨c, hcon _ _ (Or.inr h1), h2⟩
  · by_cases h : b.c1 ≤ a.c1
    · obtain ⟨c, h1, h2⟩ := ta.right
      have e : (hull a b).c1 = a.c1 := by unfold hull; simp only; omega
      rw [e]; exact ⟨c, hcon _ _ (Or.inl h1), h2⟩
    · obtain ⟨c, h1, h2⟩ := tb.right
      have e : (hull a b).c1 = b.c1 := by unfold hull; simp only; omega
      rw [e]; exact ⟨c, hcon _ _ (Or.inr h1), h2⟩

theorem foldl_hull {P : Nat → Nat → Prop} : ∀ (l : List Rect) (q : Rect), (q.r0 < q.r1 ∧ q.c0 < q.c1) → Tight q P →
    (∀ a ∈ l, (a.r0 < a.r1 ∧ a.c0 < a.c1) ∧ Tight a P) →
    ((l.foldl hull q).r0 < (l.foldl hull q).r1 ∧ (l.foldl hull q).c0 < (l.foldl hull q).c1) ∧
      Tight (l.foldl hull q) P ∧ ∀ a ∈ q :: l, ∀ r c, a.Has r c → (l.foldl hull q).Has r c
  | [], q, hq, tq, _ => ⟨hq, tq, by simp⟩
  | b :: l, q, hq, tq, h => by
    obtain ⟨h1, h2, h3⟩ := hull_tight hq (h b (by simp)).1 tq (h b (by simp)).2
    obtain ⟨i1, i2, i3⟩ := foldl_hull l (hull q b) h1 h2 (fun a ha => h a (by simp [ha]))
    refine ⟨i1, i2, ?_⟩
    intro a ha r c hac
    simp only [List.foldl_cons]
    rcases List.mem_cons.mp ha with rfl | ha
    · exact i3 _ (by simp) _ _ (h3 r c (Or.inl hac))
    · rcases List.mem_cons.mp ha with rfl | ha
      · exact i3 _ (by simp) _ _ (h3 r c (Or.inr hac))
      · exact i3 a (by simp [ha]) r c hac

theorem shift_has (r0 c0 : Nat) (q : Rect) (r c : Nat) : (shift r0 c0 q).Has (r0 + r) (c0 + c) ↔ q.Has r c := by
  unfold shift Rect.Has
  simp only
  omega

theorem shift_tight (r0 c0 : Nat) (q : Rect) (P Q : Nat → Nat → Prop) (hq : q.r0 < q.r1 ∧ q.c0 < q.c1)
    (h : ∀ r c, Q r c → P (r0 + r) (c0 + c)) (t : Tight q Q) : Tight (shift r0 c0 q) P := by
  refine ⟨?_, ?_, ?_, ?_⟩
  · obtain ⟨c, h1, h2⟩ := t.top
    rw [show (shift r0 c0 q).r0 = r0 + q.r0 by unfold shift; simp only; omega]
    exact ⟨c0 + c, (shift_has _ _ _ _ _).mpr h1, h _ _ h2⟩
  · obtain ⟨c, h1, h2⟩ := t.bottom
    rw [show (shift r0 c0 q).r1 - 1 = r0 + (q.r1 - 1) by unfold shift; simp only; omega]
    exact ⟨c0 + c, (shift_has _ _ _ _ _).mpr h1, h _ _ h2⟩
  · obtain ⟨c, h1, h2⟩ := t.left
    rw [show (shift r0 c0 q).c0 = c0 + q.c0 by unfold shift; simp only; omega]
    exact ⟨r0 + c, (shift_has _ _ _ _ _).mpr h1, h _ _ h2⟩
  · obtain ⟨c, h1, h2⟩ := t.right
    rw [show (shift r0 c0 q).c1 - 1 = c0 + (q.c1 - 1) by unfold shift; simp only; omega]
    exact ⟨r0 + c, (shift_has _ _ _ _ _).mpr h1, h _ _ h2⟩

theorem tight_mono {q : Rect} {P Q : Nat → Nat → Prop} (h : ∀ r c, P r c → Q r c) (t : Tight q P) : Tight q Q :=
  ⟨t.top.imp fun _ x => ⟨x.1, h _ _ x.2⟩, t.bottom.imp fun _ x => ⟨x.1, h _ _ x.2⟩,
   t.left.imp fun _ x => ⟨x.1, h _ _ x.2⟩, t.right.imp fun _ x => ⟨x.1, h _ _ x.2⟩⟩

/-- A process has something to select. -/
def Good {G : Type} (p : Rank G × (Nat → Nat → Bool)) : Prop :=
  ∃ r c, r < p.1.var.nrow ∧ c < p.1.var.ncol ∧ p.2 r c = false

/-- What a process contributes. -/
structure Contribution {G : Type} (p : Rank G × (Nat → Nat → Bool)) (P : Nat → Nat → Prop) (l : Option Rect) : Prop where
  eq : (localSlice p.1.var.oneD p.1.var.nrow p.1.var.ncol p.2).bind (fun l => .ok (l.map (shift p.1.r0 p.1.c0)))
    = .ok l
  none : l = none → ¬ Good p
  some : ∀ q, l = some q → (q.r0 < q.r1 ∧ q.c0 < q.c1) ∧ Tight q P ∧
    ∀ r c, r < p.1.var.nrow → c < p.1.var.ncol → p.2 r c = false → q.Has (p.1.r0 + r) (p.1.c0 + c)

theorem contribution {G : Type} (p : Rank G × (Nat → Nat → Bool)) (P : Nat → Nat → Prop)
    (hP : ∀ r c, r < p.1.var.nrow → c < p.1.var.ncol → p.2 r c = false → P (p.1.r0 + r) (p.1.c0 + c))
    (hok : p.1.var.oneD = false ∨ ¬ Good p ∨ ∃ r c, r < p.1.var.nrow ∧ c < p.1.var.ncol ∧ p.2 r c = true) :
    ∃ l, Contribution p P l := by
  by_cases hg : Good p
  · have hok' : p.1.var.oneD = false ∨ ∃ r c, r < p.1.var.nrow ∧ c < p.1.var.ncol ∧ p.2 r c = true := by
      rcases hok with h | h | h
      · exact Or.inl h
      · exact absurd hg h
      · exact Or.inr h
    obtain ⟨q, h1, h2, h3, h4, h5, h6, h7⟩ := localSlice_spec p.1.var.oneD _ _ p.2 hg hok'
    refine ⟨some (shift p.1.r0 p.1.c0 q), by rw [h1]; rfl, by simp, ?_⟩
    intro q' hq'
    cases hq'
    refine ⟨by unfold shift; simp only; omega, ?_, ?_⟩
    · exact shift_tight _ _ _ _ _ ⟨h2, h4⟩ (fun r c h => hP r c h.1 h.2.1 h.2.2) h7
    · intro r c hr hc hf
      exact (shift_has _ _ _ _ _).mpr (h6 r c hr hc hf)
  · refine ⟨none, ?_, fun _ => hg, by simp⟩
    rw [localSlice_none]
    · rfl
    · intro r c hr hc
      cases h : p.2 r c with
      | true => rfl
      | false => exact absurd ⟨r, c, hr, hc, h⟩ hg

/-- The global slice of the processes. -/
theorem globalSlice_spec {G : Type} (parts : List (Rank G × (Nat → Nat → Bool))) (P : Nat → Nat → Prop)
    (hP : ∀ p ∈ parts, ∀ r c, r < p.1.var.nrow → c < p.1.var.ncol → p.2 r c = false → P (p.1.r0 + r) (p.1.c0 + c))
    (hok : ∀ p ∈ parts, p.1.var.oneD = false ∨ ¬ Good p ∨
      ∃ r c, r < p.1.var.nrow ∧ c < p.1.var.ncol ∧ p.2 r c = true) :
    ((∀ p ∈ parts, ¬ Good p) → globalSlice parts = .error .emptySubset) ∧
    ((∃ p ∈ parts, Good p) → ∃ q, globalSlice parts = .ok q ∧ (q.r0 < q.r1 ∧ q.c0 < q.c1) ∧ Tight q P ∧
      ∀ p ∈ parts, ∀ r c, r < p.1.var.nrow → c < p.1.var.ncol → p.2 r c = false → q.Has (p.1.r0 + r) (p.1.c0 + c)) := by
  have hex : ∀ p : Rank G × (Nat → Nat → Bool), ∃ l, p ∈ parts → Contribution p P l := by
    intro p
    by_cases hp : p ∈ parts
    · obtain ⟨l, hl⟩ := contribution p P (hP p hp) (hok p hp)
      exact ⟨l, fun _ => hl⟩
    · exact ⟨none, fun h => absurd h hp⟩
  obtain ⟨loc, hloc⟩ := Classical.axiomOfChoice hex
  have hm : (parts.mapM fun p => do
      let l ← localSlice p.1.var.oneD p.1.var.nrow p.1.var.ncol p.2
      (Except.ok (l.map (shift p.1.r0 p.1.c0)) : Res (Option Rect))) = .ok (parts.map loc) :=
    mapM_ok _ loc parts fun p hp => (hloc p hp).eq
  constructor
  · intro hno
    unfold globalSlice
    rw [hm]
    have : (parts.map loc).filterMap id = [] := by
      rw [List.filterMap_eq_nil_iff]
      intro l hl
      obtain ⟨p, hp, rfl⟩ := List.mem_map.mp hl
      cases hlp : loc p with
      | none => rfl
      | some q =>
        have ht := ((hloc p hp).some q hlp)
        exfalso
        obtain ⟨⟨_, _⟩, _, _⟩ := ht
        -- a process with a slice has something
        by_cases hg : Good p
        · exact hno p hp hg
        · have e := (hloc p hp).eq
          rw [localSlice_none _ _ _ _ (by
            intro r c hr hc
            cases h : p.2 r c with
            | true => rfl
            | false => exact absurd ⟨r, c, hr, hc, h⟩ hg)] at e
          rw [hlp] at e
          cases e
    show (match (parts.map loc).filterMap id with | [] => _ | q :: rest => _) = _
    rw [this]
  · rintro ⟨p0, hp0, hg0⟩
    have hall : ∀ q, q ∈ (parts.map loc).filterMap id → (q.r0 < q.r1 ∧ q.c0 < q.c1) ∧ Tight q P := by
      intro q hq
      obtain ⟨l, hl, hlq⟩ := List.mem_filterMap.mp hq
      obtain ⟨p, hp, rfl⟩ := List.mem_map.mp hl
      have := (hloc p hp).some q hlq
      exact ⟨this.1, this.2.1⟩
    have hmem : ∀ p ∈ parts, Good p → ∃ q, loc p = some q ∧ q ∈ (parts.map loc).filterMap id := by
      intro p hp hg
      cases hlp : loc p with
      | none => exact absurd hg ((hloc p hp).none hlp)
      | some q => exact ⟨q, rfl, List.mem_filterMap.mpr ⟨some q, List.mem_map.mpr ⟨p, hp, hlp⟩, rfl⟩⟩
    unfold globalSlice
    rw [hm]
    show ∃ q, (match (parts.map loc).filterMap id with
      | [] => (Except.error PyErr.emptySubset : Res Rect)
      | q :: rest => .ok (rest.foldl hull q)) = .ok q ∧ _
    cases hl : (parts.map loc).filterMap id with
    | nil =>
      obtain ⟨q, -, hq⟩ := hmem p0 hp0 hg0
      rw [hl] at hq
      cases hq
    | cons q rest =>
      rw [hl] at hall hmem
      obtain ⟨h1, h2, h3⟩ := foldl_hull rest q (hall q (by simp)).1 (hall q (by simp)).2
        (fun a ha => hall a (by simp [ha]))
      refine ⟨_, rfl, h1, h2, ?_⟩
      intro p hp r c hr hc hf
      obtain ⟨a, ha, hma⟩ := hmem p hp ⟨r, c, hr, hc, hf⟩
      exact h3 a hma _ _ (((hloc p hp).some a ha).2.2 r c hr hc hf)

/-- A tight rectangle is the smallest. -/
theorem smallest_of_tight {q : Rect} {n m : Nat} {P : Nat → Nat → Prop}
    (hne : q.r0 < q.r1 ∧ q.c0 < q.c1) (t : Tight q fun r c => r < n ∧ c < m ∧ P r c)
    (has : ∀ r c, r < n → c < m → P r c → q.Has r c) : Smallest q n m P := by
  obtain ⟨c1, a1, b1⟩ := t.top
  obtain ⟨c2, a2, b2⟩ := t.bottom
  obtain ⟨r1, a3, b3⟩ := t.left
  obtain ⟨r2, a4, b4⟩ := t.right
  refine ⟨by omega, has, ?_⟩
  intro q' h r c hrc
  have k1 := h _ _ b1.1 b1.2.1 b1.2.2
  have k2 := h _ _ b2.1 b2.2.1 b2.2.2
  have k3 := h _ _ b3.1 b3.2.1 b3.2.2
  have k4 := h _ _ b4.1 b4.2.1 b4.2.2
  unfold Rect.Has at *
  omega

theorem smallest_unique {q q' : Rect} {n m : Nat} {P : Nat → Nat → Prop} (h : Smallest q n m P) (h' : Smallest q' n m P) :
    q = q' := by
  have a := h.least q' h'.has
  have b := h'.least q h.has
  have i := h.inside
  have i' := h'.inside
  have a1 := a q.r0 q.c0 (by unfold Rect.Has; omega)
  have a2 := a (q.r1 - 1) (q.c1 - 1) (by unfold Rect.Has; omega)
  have b1 := b q'.r0 q'.c0 (by unfold Rect.Has; omega)
  have b2 := b (q'.r1 - 1) (q'.c1 - 1) (by unfold Rect.Has; omega)
  unfold Rect.Has at *
  cases q; cases q'
  simp only [Rect.mk.injEq] at *
  omega

/-! ## Selecting -/

/-- The masks of the processes. -/
def maskedParts {G : Type} (s : Shapely G) (ps : List (Rank G)) (g : G) (useIndex keep : Bool) :
    List (Rank G × (Nat → Nat → Bool)) :=
  ps.map fun p => (p, maskFromIntersects s p.var g useIndex keep none)

/-- The mask of a process, whichever way it is computed. -/
theorem mask_selected {G : Type} (s : Shapely G) (inner : G → G → Bool) (v : GVar G) (g : G) (useIndex keep : Bool)
    (hi : useIndex = true → Lawful s inner ∧ (keep = true ∨ PartsAgree s inner g))
    (r c : Nat) (hr : r < v.nrow) (hc : c < v.ncol) :
    maskFromIntersects s v g useIndex keep none r c = false ↔ Selected s v g keep r c := by
  unfold Selected
  cases useIndex with
  | false =>
    rw [mask_plain s v g keep none r c hr hc]
    simp only [Option.getD_none, Bool.or_eq_false_iff, not_excluded]
  | true =>
    obtain ⟨hl, hg⟩ := hi rfl
    rw [mask_index s v g keep none r c hr hc hl.rtree, parts_selects s inner hl g keep hg]
    simp only [Option.getD_none, Bool.or_eq_false_iff, Bool.not_eq_false', selects_iff]

theorem selectLocal_some {G : Type} (q : Rect) (p : Rank G) (m : Nat → Nat → Bool) (o : Rank G)
    (h : selectLocal q p m = some o) :
    q.r0 + o.r0 = max q.r0 p.r0 ∧ q.r0 + o.r0 + o.var.nrow = min q.r1 (p.r0 + p.var.nrow) ∧
    q.c0 + o.c0 = max q.c0 p.c0 ∧ q.c0 + o.c0 + o.var.ncol = min q.c1 (p.c0 + p.var.ncol) ∧
    0 < o.var.nrow ∧ 0 < o.var.ncol ∧ o.var.oneD = p.var.oneD ∧
    (∀ r c, o.var.geom r c = p.var.geom (q.r0 + o.r0 + r - p.r0) (q.c0 + o.c0 + c - p.c0)) ∧
    (∀ r c, o.var.masked r c = (m (q.r0 + o.r0 + r - p.r0) (q.c0 + o.c0 + c - p.c0)
      || p.var.masked (q.r0 + o.r0 + r - p.r0) (q.c0 + o.c0 + c - p.c0))) ∧ o.var.mask ≠ none := by
  unfold selectLocal localPart at h
  simp only [Bool.and_eq_true, decide_eq_true_eq] at h
  split at h
  · rename_i hlt
    simp only [Option.map_some, Option.some.injEq] at h
    subst h
    unfold GVar.updateMask GVar.slice
    simp only
    refine ⟨by omega, by omega, by omega, by omega, by omega, by omega, trivial, ?_, ?_, by simp⟩
    · intro r c
      unfold sub
      simp only
      congr 1 <;> omega
    · intro r c
      have e1 : q.r0 + (p.r0 + (max q.r0 p.r0 - p.r0) - q.r0) + r - p.r0 = max q.r0 p.r0 - p.r0 + r := by omega
      have e2 : q.c0 + (p.c0 + (max q.c0 p.c0 - p.c0) - q.c0) + c - p.c0 = max q.c0 p.c0 - p.c0 + c := by omega
      rw [e1, e2]
      unfold GVar.masked sub
      cases p.var.mask <;> rfl
  · cases h

theorem selectLocal_none {G : Type} (q : Rect) (p : Rank G) (m : Nat → Nat → Bool) :
    selectLocal q p m = none ↔ ¬ ∃ r c, q.Has r c ∧ p.Holds r c := by
  unfold selectLocal localPart Rect.Has Rank.Holds
  simp only [Bool.and_eq_true, decide_eq_true_eq]
  split
  · rename_i h
    simp only [Option.map_some, reduceCtorEq, false_iff, Classical.not_not]
    exact ⟨max q.r0 p.r0, max q.c0 p.c0, by omega, by omega⟩
  · rename_i h
    simp only [Option.map_none, true_iff]
    rintro ⟨r, c, h1, h2⟩
    apply h
    omega

theorem has_of_tile {G : Type} {ps : List (Rank G)} {v : GVar G} (hb : Blocks ps v) {p : Rank G} (hp : p ∈ ps)
    {r c : Nat} (h : p.Holds r c) : r < v.nrow ∧ c < v.ncol ∧ p.var.geom (r - p.r0) (c - p.c0) = v.geom r c ∧
      p.var.masked (r - p.r0) (c - p.c0) = v.masked r c := by
  have hi := hb.inside p hp
  unfold Rank.Holds at h
  have e1 : p.r0 + (r - p.r0) = r := by omega
  have e2 : p.c0 + (c - p.c0) = c := by omega
  refine ⟨by omega, by omega, ?_, ?_⟩
  · rw [hb.geom p hp _ _ (by omega) (by omega), e1, e2]
  · rw [hb.mask p hp _ _ (by omega) (by omega), e1, e2]

theorem selected_local {G : Type} {s : Shapely G} {ps : List (Rank G)} {v : GVar G} {g : G} {keep : Bool}
    (hb : Blocks ps v) {p : Rank G} (hp : p ∈ ps) {r c : Nat} (h : p.Holds r c) :
    Selected s p.var g keep (r - p.r0) (c - p.c0) ↔ Selected s v g keep r c := by
  obtain ⟨-, -, h3, h4⟩ := has_of_tile hb hp h
  unfold Selected
  rw [h3, h4]

theorem select_spec {G : Type} (s : Shapely G) (inner : G → G → Bool) (v : GVar G) (ps : List (Rank G)) (g : G)
    (useIndex keep : Bool) (hb : Blocks ps v) (hv : Varied s v g keep ps)
    (hi : useIndex = true → Lawful s inner ∧ (keep = true ∨ PartsAgree s inner g)) :
    ((∀ r c, r < v.nrow → c < v.ncol → ¬ Selected s v g keep r c) →
      getIntersects s ps g useIndex keep none = .error .emptySubset) ∧
    ((∃ r c, r < v.nrow ∧ c < v.ncol ∧ Selected s v g keep r c) →
      ∃ outs q, getIntersects s ps g useIndex keep none = .ok (outs, q) ∧
        Smallest q v.nrow v.ncol (Selected s v g keep) ∧ Parts s v g keep id q ps outs) := by
  have hms : (ps.map fun p => (p, maskFromIntersects s p.var g useIndex keep
      (Option.map (fun (m : Nat → Nat → Bool) r c => m (p.r0 + r) (p.c0 + c)) none))) = maskedParts s ps g useIndex keep := rfl
  have hmask : ∀ p ∈ ps, ∀ r c, r < p.var.nrow → c < p.var.ncol →
      (maskFromIntersects s p.var g useIndex keep none r c = false ↔ Selected s v g keep (p.r0 + r) (p.c0 + c)) := by
    intro p hp r c hr hc
    rw [mask_selected s inner p.var g useIndex keep hi r c hr hc]
    have := selected_local (s := s) (g := g) (keep := keep) hb hp (r := p.r0 + r) (c := p.c0 + c)
      (by unfold Rank.Holds; omega)
    rwa [Nat.add_sub_cancel_left, Nat.add_sub_cancel_left] at this
  have hgood : ∀ p ∈ ps, Good (p, maskFromIntersects s p.var g useIndex keep none) ↔
      ∃ r c, p.Holds r c ∧ Selected s v g keep r c := by
    intro p hp
    unfold Good
    constructor
    · rintro ⟨r, c, hr, hc, h⟩
      exact ⟨p.r0 + r, p.c0 + c, by unfold Rank.Holds; simp only at hr hc; omega, (hmask p hp r c hr hc).mp h⟩
    · rintro ⟨r, c, h1, h2⟩
      unfold Rank.Holds at h1
      refine ⟨r - p.r0, c - p.c0, by simp only; omega, by simp only; omega, ?_⟩
      rw [hmask p hp _ _ (by omega) (by omega), show p.r0 + (r - p.r0) = r by omega,
        show p.c0 + (c - p.c0) = c by omega]
      exact h2
  obtain ⟨hE, hO⟩ := globalSlice_spec (maskedParts s ps g useIndex keep)
    (fun r c => r < v.nrow ∧ c < v.ncol ∧ Selected s v g keep r c)
    (by
      intro pm hpm r c hr hc hf
      obtain ⟨p, hp, rfl⟩ := List.mem_map.mp hpm
      have := hb.inside p hp
      simp only at hr hc hf
      exact ⟨by simp only; omega, by simp only; omega, (hmask p hp r c hr hc).mp hf⟩)
    (by
      intro pm hpm
      obtain ⟨p, hp, rfl⟩ := List.mem_map.mp hpm
      rcases hv with h | h
      · exact Or.inl ((hb.oneD p hp).trans h)
      · rcases h p hp with ⟨r, c, h1, h2⟩ | h
        · refine Or.inr (Or.inr ⟨r - p.r0, c - p.c0, ?_, ?_, ?_⟩)
          · unfold Rank.Holds at h1; simp only; omega
          · unfold Rank.Holds at h1; simp only; omega
          · simp only
            cases hm : maskFromIntersects s p.var g useIndex keep none (r - p.r0) (c - p.c0) with
            | true => rfl
            | false =>
              unfold Rank.Holds at h1
              have := (hmask p hp _ _ (by omega) (by omega)).mp hm
              rw [show p.r0 + (r - p.r0) = r by omega, show p.c0 + (c - p.c0) = c by omega] at this
              exact absurd this h2
        · refine Or.inr (Or.inl ?_)
          rw [hgood p hp]
          rintro ⟨r, c, h1, h2⟩
          exact h r c h1 h2)
  constructor
  · intro hno
    unfold getIntersects
    rw [hms]
    dsimp only
    rw [hE]
    · rfl
    · intro pm hpm
      obtain ⟨p, hp, rfl⟩ := List.mem_map.mp hpm
      rw [hgood p hp]
      rintro ⟨r, c, h1, h2⟩
      have := has_of_tile hb hp h1
      exact hno r c this.1 this.2.1 h2
  · rintro ⟨r, c, hr, hc, hs⟩
    obtain ⟨p, hp, hh⟩ := hb.cover r c hr hc
    obtain ⟨q, hq, hne, ht, hhas⟩ := hO ⟨_, List.mem_map.mpr ⟨p, hp, rfl⟩, (hgood p hp).mpr ⟨r, c, hh, hs⟩⟩
    refine ⟨(maskedParts s ps g useIndex keep).map fun pm => selectLocal q pm.1 pm.2, q, ?_, ?_, ?_, ?_⟩
    · unfold getIntersects
      rw [hms]
      dsimp only
      rw [hq]
      rfl
    · refine smallest_of_tight hne ht ?_
      intro r c hr hc hs
      obtain ⟨p, hp, hh⟩ := hb.cover r c hr hc
      have := hhas _ (List.mem_map.mpr ⟨p, hp, rfl⟩) (r - p.r0) (c - p.c0) (by simp only; omega) (by simp only; omega)
        (by
          simp only
          rw [hmask p hp _ _ (by omega) (by omega), show p.r0 + (r - p.r0) = r by omega,
            show p.c0 + (c - p.c0) = c by omega]
          exact hs)
      simp only at this
      rwa [show p.r0 + (r - p.r0) = r by omega, show p.c0 + (c - p.c0) = c by omega] at this
    · simp [maskedParts]
    · intro k p hk
      have hp := List.mem_of_getElem? hk
      have hout : ((maskedParts s ps g useIndex keep).map fun pm => selectLocal q pm.1 pm.2)[k]?
          = some (selectLocal q p (maskFromIntersects s p.var g useIndex keep none)) := by
        simp [maskedParts, hk]
      rw [hout]
      cases ho : selectLocal q p (maskFromIntersects s p.var g useIndex keep none) with
      | none => exact Or.inl ⟨rfl, (selectLocal_none q p _).mp ho⟩
      | some o =>
        refine Or.inr ⟨o, rfl, ?_⟩
        obtain ⟨a1, a2, a3, a4, a5, a6, -, a8, a9, -⟩ := selectLocal_some q p _ o ho
        have hin : ∀ i j, i < o.var.nrow → j < o.var.ncol → p.Holds (q.r0 + o.r0 + i) (q.c0 + o.c0 + j) := by
          intro i j h1 h2
          unfold Rank.Holds
          omega
        refine ⟨?_, ?_, ?_, ?_⟩
        · intro r c
          unfold Rect.Has Rank.Holds
          omega
        · intro i j h1 h2
          have hh := hin i j h1 h2
          have hb' := has_of_tile hb hp hh
          rw [a9, Bool.or_eq_false_iff, hb'.2.2.2]
          have hh' := hh
          unfold Rank.Holds at hh'
          rw [hmask p hp _ _ (by omega) (by omega), show p.r0 + (q.r0 + o.r0 + i - p.r0) = q.r0 + o.r0 + i by omega,
            show p.c0 + (q.c0 + o.c0 + j - p.c0) = q.c0 + o.c0 + j by omega]
          exact ⟨fun h => h.1, fun h => ⟨h, h.1⟩⟩
        · intro i j h1 h2 _
          rw [a8, (has_of_tile hb hp (hin i j h1 h2)).2.2.1]
          rfl
        · intro i j h1 h2 _
          rw [a8, (has_of_tile hb hp (hin i j h1 h2)).2.2.1]

theorem clip_part {G : Type} (s : Shapely G) (v : GVar G) (g : G) (keep : Bool) (q : Rect) (p o : Rank G)
    (h : PartOf s v g keep id q p o) :
    PartOf s v g keep (fun x => s.intersection x g) q p { o with var := clip s g o.var } := by
  have hm : ∀ i j, (clip s g o.var).masked i j = o.var.masked i j := fun i j => rfl
  refine ⟨h.holds, fun i j h1 h2 => by rw [hm]; exact h.mask i j h1 h2, ?_, ?_⟩
  · intro i j h1 h2 hs
    show (if o.var.masked i j then o.var.geom i j else s.intersection (o.var.geom i j) g) = _
    rw [if_neg (by rw [(h.mask i j h1 h2).mpr hs]; simp), h.selected i j h1 h2 hs]
    rfl
  · intro i j h1 h2 hs
    show (if o.var.masked i j then o.var.geom i j else s.intersection (o.var.geom i j) g) = _
    rw [if_pos, h.other i j h1 h2 hs]
    cases hb : o.var.masked i j with
    | true => rfl
    | false => exact absurd ((h.mask i j h1 h2).mp hb) hs

theorem part_place {G : Type} {s : Shapely G} {v : GVar G} {g : G} {keep : Bool} {f : G → G} {q : Rect} {p o : Rank G}
    (h : PartOf s v g keep f q p o) (l : Rect) (hl : localPart q p = some l) :
    q.r0 + o.r0 = p.r0 + l.r0 ∧ q.c0 + o.c0 = p.c0 + l.c0 ∧ l.r0 + o.var.nrow = l.r1 ∧ l.c0 + o.var.ncol = l.c1 := by
  unfold localPart at hl
  simp only [Bool.and_eq_true, decide_eq_true_eq] at hl
  split at hl
  · rename_i hlt
    cases hl
    have h1 := h.holds
    unfold Rect.Has Rank.Holds at h1
    obtain ⟨a1, a2, a3, a4⟩ := (h1 (max q.r0 p.r0) (max q.c0 p.c0)).mp ⟨by omega, by omega⟩
    obtain ⟨b1, b2, b3, b4⟩ := (h1 (min q.r1 (p.r0 + p.var.nrow) - 1) (min q.c1 (p.c0 + p.var.ncol) - 1)).mp
      ⟨by omega, by omega⟩
    obtain ⟨c1, c2⟩ := (h1 (q.r0 + o.r0) (q.c0 + o.c0)).mpr ⟨by omega, by omega, by omega, by omega⟩
    obtain ⟨d1, d2⟩ := (h1 (q.r0 + o.r0 + o.var.nrow - 1) (q.c0 + o.c0 + o.var.ncol - 1)).mpr
      ⟨by omega, by omega, by omega, by omega⟩
    clear h1
    refine ⟨?_, ?_, ?_, ?_⟩ <;> simp only <;> omega
  · cases hl

theorem written_spec {G : Type} {s : Shapely G} {v : GVar G} {g : G} {keep : Bool} {f : G → G} {q : Rect}
    {ps : List (Rank G)} (hb : Blocks ps v) (hq : Smallest q v.nrow v.ncol (Selected s v g keep)) {p : Rank G}
    (hp : p ∈ ps) (out : Option (Rank G))
    (h : (out = none ∧ ¬ ∃ r c, q.Has r c ∧ p.Holds r c) ∨ ∃ o, out = some o ∧ PartOf s v g keep f q p o) :
    (written q p out).r0 = p.r0 ∧ (written q p out).c0 = p.c0 ∧ (written q p out).var.nrow = p.var.nrow ∧
    (written q p out).var.ncol = p.var.ncol ∧ (written q p out).var.mask = p.var.mask ∧
    ∀ r c, r < p.var.nrow → c < p.var.ncol →
      (Selected s v g keep (p.r0 + r) (p.c0 + c) → (written q p out).var.geom r c = f (p.var.geom r c)) ∧
      (¬ Selected s v g keep (p.r0 + r) (p.c0 + c) → (written q p out).var.geom r c = p.var.geom r c) := by
  rcases h with ⟨rfl, hno⟩ | ⟨o, rfl, ho⟩
  · refine ⟨rfl, rfl, rfl, rfl, rfl, ?_⟩
    intro r c hr hc
    refine ⟨fun hs => ?_, fun _ => rfl⟩
    have := hb.inside p hp
    exact absurd ⟨_, _, hq.has _ _ (by omega) (by omega) hs, by unfold Rank.Holds; omega⟩ hno
  · cases hl : localPart q p with
    | none =>
      simp only [written, hl]
      refine ⟨trivial, trivial, trivial, trivial, trivial, ?_⟩
      intro r c hr hc
      refine ⟨fun hs => ?_, fun _ => trivial⟩
      have hin := hb.inside p hp
      have hh := hq.has _ _ (by omega) (by omega) hs
      exfalso
      unfold localPart at hl
      simp only [Bool.and_eq_true, decide_eq_true_eq] at hl
      split at hl
      · cases hl
      · rename_i hlt
        unfold Rect.Has at hh
        apply hlt
        omega
    | some l =>
      obtain ⟨e1, e2, e3, e4⟩ := part_place ho l hl
      simp only [written, hl]
      refine ⟨trivial, trivial, trivial, trivial, trivial, ?_⟩
      intro r c hr hc
      have hin := hb.inside p hp
      have hg : p.var.geom r c = v.geom (p.r0 + r) (p.c0 + c) := hb.geom p hp r c hr hc
      constructor
      · intro hs
        have hh := hq.has _ _ (by omega) (by omega) hs
        have hh2 := (ho.holds (p.r0 + r) (p.c0 + c)).mp ⟨hh, by unfold Rank.Holds; omega⟩
        rw [if_pos (by omega)]
        have e5 : q.r0 + o.r0 + (r - l.r0) = p.r0 + r := by omega
        have e6 : q.c0 + o.c0 + (c - l.c0) = p.c0 + c := by omega
        have := ho.selected (r - l.r0) (c - l.c0) (by omega) (by omega) (by rw [e5, e6]; exact hs)
        rw [this, e5, e6, hg]
      · intro hs
        split
        · rename_i hlt
          have e5 : q.r0 + o.r0 + (r - l.r0) = p.r0 + r := by omega
          have e6 : q.c0 + o.c0 + (c - l.c0) = p.c0 + c := by omega
          have := ho.other (r - l.r0) (c - l.c0) (by omega) (by omega) (by rw [e5, e6]; exact hs)
          rw [this, e5, e6, hg]
        · rfl

/-! ## The nearest geometry -/

theorem mem_insertDistance (d : Rat) (x : Nat × Nat) : ∀ (D : List (Rat × (Nat × Nat))), (D.map (·.1)).Nodup →
    ∀ e, e ∈ insertDistance d x D ↔ e = (d, x) ∨ (e ∈ D ∧ e.1 ≠ d)
  | [], _, e => by simp [insertDistance]
  | (a, j) :: D, h, e => by
    simp only [List.map_cons, List.nodup_cons] at h
    unfold insertDistance
    split
    · rename_i hd
      subst hd
      simp only [List.mem_cons]
      constructor
      · rintro (h1 | h1)
        · exact Or.inl h1
        · refine Or.inr ⟨Or.inr h1, ?_⟩
          intro he
          exact h.1 (List.mem_map.mpr ⟨e, h1, he⟩)
      · rintro (h1 | ⟨h1 | h1, h2⟩)
        · exact Or.inl h1
        · subst h1; exact absurd rfl h2
        · exact Or.inr h1
    · rename_i hd
      simp only [List.mem_cons, mem_insertDistance d x D h.2 e]
      constructor
      · rintro (h1 | h1 | h1)
        · subst h1; exact Or.inr ⟨Or.inl rfl, hd⟩
        · exact Or.inl h1
        · exact Or.inr ⟨Or.inr h1.1, h1.2⟩
      · rintro (h1 | ⟨h1 | h1, h2⟩)
        · exact Or.inr (Or.inl h1)
        · exact Or.inl h1
        · exact Or.inr (Or.inr ⟨h1, h2⟩)

theorem nodup_insertDistance (d : Rat) (x : Nat × Nat) : ∀ (D : List (Rat × (Nat × Nat))), (D.map (·.1)).Nodup →
    ((insertDistance d x D).map (·.1)).Nodup
  | [], _ => by simp [insertDistance]
  | (a, j) :: D, h => by
    have h' := h
    simp only [List.map_cons, List.nodup_cons] at h'
    unfold insertDistance
    split
    · simpa using h'
    · rename_i hd
      simp only [List.map_cons, List.nodup_cons]
      refine ⟨?_, nodup_insertDistance d x D h'.2⟩
      intro hm
      obtain ⟨e, he, hea⟩ := List.mem_map.mp hm
      rcases (mem_insertDistance d x D h'.2 e).mp he with h1 | ⟨h1, -⟩
      · subst h1; exact hd hea.symm
      · exact h'.1 (List.mem_map.mpr ⟨e, h1, hea⟩)

/-- The dictionary of distances of a list of positions. -/
structure Dict (dist : Nat × Nat → Rat) (L : List (Nat × Nat)) (D : List (Rat × (Nat × Nat))) : Prop where
  nodup : (D.map (·.1)).Nodup
  last : ∀ e ∈ D, ∃ pre post, L = pre ++ e.2 :: post ∧ dist e.2 = e.1 ∧ ∀ j ∈ post, dist j ≠ e.1
  keys : ∀ i ∈ L, ∃ e ∈ D, e.1 = dist i

theorem dict_step (dist : Nat × Nat → Rat) (L : List (Nat × Nat)) (D : List (Rat × (Nat × Nat))) (x : Nat × Nat)
    (h : Dict dist L D) : Dict dist (L ++ [x]) (insertDistance (dist x) x D) := by
  refine ⟨nodup_insertDistance _ _ _ h.nodup, ?_, ?_⟩
  · intro e he
    rcases (mem_insertDistance _ _ _ h.nodup e).mp he with h1 | ⟨h1, h2⟩
    · subst h1
      exact ⟨L, [], rfl, rfl, by simp⟩
    · obtain ⟨pre, post, a, b, c⟩ := h.last e h1
      refine ⟨pre, post ++ [x], by rw [a]; simp, b, ?_⟩
      intro j hj
      rcases List.mem_append.mp hj with hj | hj
      · exact c j hj
      · rw [List.mem_singleton] at hj; subst hj; exact fun e => h2 e.symm
  · intro i hi
    rcases List.mem_append.mp hi with hi | hi
    · obtain ⟨e, he, hk⟩ := h.keys i hi
      by_cases hd : e.1 = dist x
      · exact ⟨(dist x, x), (mem_insertDistance _ _ _ h.nodup _).mpr (Or.inl rfl), by rw [← hk, hd]⟩
      · exact ⟨e, (mem_insertDistance _ _ _ h.nodup _).mpr (Or.inr ⟨he, hd⟩), hk⟩
    · rw [List.mem_singleton] at hi
      subst hi
      exact ⟨(dist i, i), (mem_insertDistance _ _ _ h.nodup _).mpr (Or.inl rfl), rfl⟩

theorem dict_fold (dist : Nat × Nat → Rat) : ∀ (xs L : List (Nat × Nat)) (D : List (Rat × (Nat × Nat))),
    Dict dist L D → Dict dist (L ++ xs) (xs.foldl (fun d i => insertDistance (dist i) i d) D)
  | [], L, D, h => by simpa using h
  | x :: xs, L, D, h => by
    have := dict_fold dist xs (L ++ [x]) _ (dict_step dist L D x h)
    simpa using this

theorem minEntry_spec : ∀ D : List (Rat × (Nat × Nat)),
    (D = [] ∧ minEntry D = none) ∨ ∃ e ∈ D, minEntry D = some e ∧ ∀ f ∈ D, e.1 ≤ f.1
  | [] => Or.inl ⟨rfl, rfl⟩
  | a :: D => by
    right
    rcases minEntry_spec D with ⟨rfl, h⟩ | ⟨e, he, h, hm⟩
    · exact ⟨a, by simp, by simp [minEntry], by simp⟩
    · unfold minEntry
      rw [h]
      simp only
      by_cases hle : a.1 ≤ e.1
      · rw [if_pos hle]
        refine ⟨a, by simp, rfl, ?_⟩
        intro f hf
        rcases List.mem_cons.mp hf with rfl | hf
        · exact Rat.le_refl
        · exact Rat.le_trans hle (hm f hf)
      · rw [if_neg hle]
        refine ⟨e, by simp [he], rfl, ?_⟩
        intro f hf
        rcases List.mem_cons.mp hf with rfl | hf
        · rcases Rat.le_total (a := e.1) (b := f.1) with h' | h'
          · exact h'
          · exact absurd h' hle
        · exact hm f hf

theorem mem_positions {G : Type} (v : GVar G) (r c : Nat) :
    (r, c) ∈ positions v ↔ r < v.nrow ∧ c < v.ncol ∧ v.masked r c = false := by
  unfold positions
  simp only [List.mem_filter, List.mem_map, List.mem_range, Prod.mk.injEq, Bool.not_eq_true']
  constructor
  · rintro ⟨⟨k, hk, rfl, rfl⟩, h⟩
    have hm : 0 < v.ncol := by
      rcases Nat.eq_zero_or_pos v.ncol with h0 | h0
      · rw [h0] at hk; simp at hk
      · exact h0
    exact ⟨(Nat.div_lt_iff_lt_mul hm).mpr hk, Nat.mod_lt _ hm, h⟩
  · rintro ⟨h1, h2, h3⟩
    exact ⟨⟨r * v.ncol + c, pos_lt h1 h2, pos_div h2, pos_mod h2⟩, h3⟩

theorem positions_ordered {G : Type} (v : GVar G) : (positions v).Pairwise Before := by
  unfold positions
  apply List.Pairwise.filter
  rw [List.pairwise_map]
  refine List.Pairwise.imp ?_ List.pairwise_lt_range
  intro a b hab
  unfold Before
  simp only
  have h1 : a / v.ncol ≤ b / v.ncol := Nat.div_le_div_right (Nat.le_of_lt hab)
  rcases Nat.lt_or_eq_of_le h1 with h | h
  · exact Or.inl h
  · right
    refine ⟨h, ?_⟩
    have ha := Nat.div_add_mod a v.ncol
    have hb := Nat.div_add_mod b v.ncol
    rw [h] at ha
    omega

end Ocgis.GeomSelect
