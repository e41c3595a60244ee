import Verif.Proofs.Extrapolate
/-!
# C103: bounds extrapolated from centres
-/
namespace Ocgis.Props
open Ocgis.Coords Ocgis.Extrapolate Ocgis.Spec Ocgis.Proofs.Extrapolate

/-- C103: an array of at least two by two floating point centres gets corners, and every inner corner is the mean of the
four centres around it. -/
theorem C103_inner_corners (m n : Nat) (arr : Nat → Nat → Rat) (hm : 2 ≤ m) (hn : 2 ≤ n) :
    ∃ c, extrapolatedCorners id m n arr = .ok c ∧ ∀ i j, i + 1 < m → j + 1 < n →
      c (i + 1) (j + 1) = (arr i j + arr i (j + 1) + arr (i + 1) j + arr (i + 1) (j + 1)) / 4 := by
  refine ⟨fullCorners id m n arr, ?_, fun i j hi hj => full_inside id m n arr i j hi hj⟩
  unfold extrapolatedCorners
  rw [if_neg (by omega), if_neg (by omega)]

/-- C103, for arrays whose first row and first column go one way: the corners around the outside are one step away from the
corners next to them, on every row and every column, and the step is the mean step of the first row (the first column), up
or down as it goes.  Partial: the direction and the step of other rows and columns play no part
(`C103_bent_counterexample`), and integers are cut off (`C103_integers_counterexample`). -/
theorem C103_outer_corners_partial (m n : Nat) (arr : Nat → Nat → Rat) (hm : 2 ≤ m) (hn : 2 ≤ n)
    (hr : OneWay n fun j => arr 0 j) (hc : OneWay m fun i => arr i 0) :
    ∃ c, extrapolatedCorners id m n arr = .ok c ∧
      (∀ i, i ≤ m → c i 1 - c i 0 = meanStep n (fun j => arr 0 j) ∧ c i n - c i (n - 1) = meanStep n (fun j => arr 0 j)) ∧
      (∀ j, j ≤ n → c 1 j - c 0 j = meanStep m (fun i => arr i 0) ∧ c m j - c (m - 1) j = meanStep m (fun i => arr i 0)) := by
  refine ⟨fullCorners id m n arr, ?_, ?_, ?_⟩
  · unfold extrapolatedCorners
    rw [if_neg (by omega), if_neg (by omega)]
  · intro i hi
    rw [full_left m n arr hm hn hr i hi, full_right m n arr hm hn hr i hi]
    constructor <;> grind
  · intro j hj
    rw [full_top m n arr hm hn hr hc j hj, full_bottom m n arr hm hn hr hc j hj]
    constructor <;> grind

/-- C103, for every rectilinear grid, or sheared one: when the centre of row `i` and column `j` is `f i + g j`, with `f` and
`g` each going one way at any spacing, every corner is the sum of the edge of its row and the edge of its column, the edges
being the midpoints inside and one mean step beyond at the ends. -/
theorem C103_rectilinear (m n : Nat) (f g : Nat → Rat) (hm : 2 ≤ m) (hn : 2 ≤ n) (hf : OneWay m f) (hg : OneWay n g) :
    ∃ c, extrapolatedCorners id m n (fun i j => f i + g j) = .ok c ∧
      ∀ i j, i ≤ m → j ≤ n → c i j = edgeOf m f i + edgeOf n g j := by
  refine ⟨fullCorners id m n _, ?_, fun i j hi hj => full_sum m n f g hm hn hf hg i j hi hj⟩
  unfold extrapolatedCorners
  rw [if_neg (by omega), if_neg (by omega)]

/-- C103, for every regular grid, its rows and columns increasing, decreasing or constant: every corner is half a step off
the centres in both directions, and every centre is the mean of the four corners of its cell. -/
theorem C103_regular (m n : Nat) (a p q : Rat) (hm : 2 ≤ m) (hn : 2 ≤ n) :
    ∃ c, extrapolatedCorners id m n (fun i j => a + (i : Rat) * p + (j : Rat) * q) = .ok c ∧
      (∀ i j : Nat, i ≤ m → j ≤ n → c i j = a + ((i : Rat) - 1 / 2) * p + ((j : Rat) - 1 / 2) * q) ∧
      (∀ i j : Nat, i < m → j < n → (c i j + c i (j + 1) + c (i + 1) (j + 1) + c (i + 1) j) / 4 =
        a + (i : Rat) * p + (j : Rat) * q) := by
  have key : ∀ i j : Nat, i ≤ m → j ≤ n →
      fullCorners id m n (fun i j => a + (i : Rat) * p + (j : Rat) * q) i j =
        a + ((i : Rat) - 1 / 2) * p + ((j : Rat) - 1 / 2) * q := by
    intro i j hi hj
    have one : ∀ (k : Nat) (b d : Rat), OneWay k fun i => b + (i : Rat) * d := by
      intro k b d
      by_cases hd : 0 ≤ d
      · exact Or.inl fun i _ => by push_cast; grind
      · exact Or.inr fun i _ => by push_cast; grind
    have e : (fun i j : Nat => a + (i : Rat) * p + (j : Rat) * q) =
        fun i j => (fun i : Nat => a + (i : Rat) * p) i + (fun j : Nat => 0 + (j : Rat) * q) j := by
      funext i j; simp only; grind
    rw [e, full_sum m n (fun i : Nat => a + (i : Rat) * p) (fun j : Nat => 0 + (j : Rat) * q) hm hn (one _ _ _) (one _ _ _)
      i j hi hj, edgeOf_even m a p hm i hi, edgeOf_even n 0 q hn j hj]
    grind
  refine ⟨fullCorners id m n _, ?_, key, ?_⟩
  · unfold extrapolatedCorners
    rw [if_neg (by omega), if_neg (by omega)]
  · intro i j hi hj
    rw [key i j (by omega) (by omega), key i (j + 1) (by omega) (by omega), key (i + 1) (j + 1) (by omega) (by omega),
      key (i + 1) j (by omega) (by omega)]
    push_cast
    grind

/-- C103: an array with one row, or with one column, gets the edges of its values as a vector, repeated for both sides.
Partial: the two sides have the same corners, so the coordinate that is constant along the strip has cells without extent
(`C103_strip_counterexample`). -/
theorem C103_strip_partial (k : Nat) (arr : Nat → Nat → Rat) (hk : 2 ≤ k) :
    (∃ c e, extrapolatedCorners id 1 k arr = .ok c ∧ boundsVector ((List.range k).map (arr 0)) = .ok e ∧ e.length = k + 1 ∧
      ∀ i j, i ≤ 1 → j ≤ k → e[j]? = some (c i j)) ∧
    (∃ c e, extrapolatedCorners id k 1 arr = .ok c ∧ boundsVector ((List.range k).map fun i => arr i 0) = .ok e ∧
      e.length = k + 1 ∧ ∀ i j, i ≤ k → j ≤ 1 → e[i]? = some (c i j)) := by
  constructor
  · obtain ⟨e, h1, h2⟩ := boundsVectorSt_id ((List.range k).map (arr 0)) (by simpa using hk)
    obtain ⟨_, e', h3, h4, _⟩ := boundsVector_ok ((List.range k).map (arr 0)) (by simpa using hk)
    rw [h2] at h3; cases h3
    have hl : e.length = k + 1 := by simpa using h4
    refine ⟨fun _ j => e.getD j 0, e, ?_, h2, hl, ?_⟩
    · unfold extrapolatedCorners
      rw [if_neg (by omega), if_pos (by omega), if_neg (by omega)]
      simp only [line]
      have h1' : boundsVectorSt id (List.map (fun j => arr 0 j) (List.range k)) = .ok e := h1
      rw [h1']
      simp only
      rw [if_neg (by omega)]
      rfl
    · intro i j _ hj
      show e[j]? = some (e.getD j 0)
      rw [List.getElem?_eq_getElem (by omega), List.getD_eq_getElem?_getD, List.getElem?_eq_getElem (by omega)]
      rfl
  · obtain ⟨e, h1, h2⟩ := boundsVectorSt_id ((List.range k).map fun i => arr i 0) (by simpa using hk)
    obtain ⟨_, e', h3, h4, _⟩ := boundsVector_ok ((List.range k).map fun i => arr i 0) (by simpa using hk)
    rw [h2] at h3; cases h3
    have hl : e.length = k + 1 := by simpa using h4
    refine ⟨fun i _ => e.getD i 0, e, ?_, h2, hl, ?_⟩
    · unfold extrapolatedCorners
      rw [if_neg (by omega), if_pos (by omega), if_pos rfl]
      simp only [line]
      rw [h1]
      rfl
    · intro i j hi _
      show e[i]? = some (e.getD i 0)
      rw [List.getElem?_eq_getElem (by omega), List.getD_eq_getElem?_getD, List.getElem?_eq_getElem (by omega)]
      rfl

/-! ### Variables and grids -/

/-- C103, two-dimensional coordinates: a variable of floats with dimensions and without bounds gets a bounds variable of
the given name, with one more dimension of size four, whose cells have the extrapolated corners, counter-clockwise in the
indices; no other variable changes, and this one only by the name of its bounds.  The name has to be new to the collection
(`C103_name_counterexample`). -/
theorem C103_array_variable (vs : Vars) (n nb nd : String) (v : Var) (rows : List (List Rat)) (ds : List (String × Nat))
    (c : Nat → Nat → Rat) (hv : vs.lookup n = some v) (hval : v.val = .mat rows) (hb : v.bounds = none)
    (hd : v.dims = some ds) (he : v.empty = false) (hf : v.float = true) (hnew : vs.lookup nb = none)
    (hc : extrapolatedCorners id rows.length (ncol rows) (elem rows) = .ok c) :
    ∃ vs' b q, setExtrapolated n nb nd vs = (vs', none) ∧ vs'.lookup n = some { v with bounds := some nb } ∧
      vs'.lookup nb = some b ∧ b.dims = some (ds ++ [(nd, 4)]) ∧ b.val = .quads q ∧
      (∀ i j, i < rows.length → j < ncol rows →
        (q[i]?.bind fun r => r[j]?) = some ⟨c i j, c i (j + 1), c (i + 1) (j + 1), c (i + 1) j⟩) ∧
      (∀ x, x ≠ n → x ≠ nb → vs'.lookup x = vs.lookup x) := by
  have hbv : boundsValue v = .ok (.quads ((List.range rows.length).map fun i => (List.range (ncol rows)).map fun j =>
      cellCorners c i j), 4) := by
    unfold boundsValue
    rw [hval]
    simp only [he, hf, storage, if_true, Bool.false_eq_true, if_false]
    rw [hc]
  obtain ⟨h1, h2, h3, h4⟩ := set_new vs n nb nd v ds _ _ hv hb hd hbv hnew
  refine ⟨_, _, _, h1, h2, h3, rfl, rfl, ?_, h4⟩
  intro i j hi hj
  simp [hi, hj, cellCorners]

/-- C103, coordinate vectors: likewise, with a dimension of size two and the cells of the vector. -/
theorem C103_vector_variable (vs : Vars) (n nb nd : String) (v : Var) (l : List Rat) (ds : List (String × Nat))
    (cells : List (Rat × Rat)) (hv : vs.lookup n = some v) (hval : v.val = .vec l) (hb : v.bounds = none)
    (hd : v.dims = some ds) (he : v.empty = false) (hf : v.float = true) (hnew : vs.lookup nb = none)
    (hc : boundsFrom1d l = .ok cells) :
    ∃ vs' b, setExtrapolated n nb nd vs = (vs', none) ∧ vs'.lookup n = some { v with bounds := some nb } ∧
      vs'.lookup nb = some b ∧ b.dims = some (ds ++ [(nd, 2)]) ∧ b.val = .pairs cells ∧
      (∀ x, x ≠ n → x ≠ nb → vs'.lookup x = vs.lookup x) := by
  have hbv : boundsValue v = .ok (.pairs cells, 2) := by
    unfold boundsValue
    rw [hval]
    simp only [he, hf, storage, if_true, Bool.false_eq_true, if_false]
    rw [boundsFrom1dSt_id l cells hc]
  obtain ⟨h1, h2, h3, h4⟩ := set_new vs n nb nd v ds _ _ hv hb hd hbv hnew
  exact ⟨_, _, h1, h2, h3, rfl, rfl, h4⟩

/-- C103, the variable of a rank without data: it gets a bounds variable without values and with the dimensions the other
ranks give theirs. -/
theorem C103_empty_variable (vs : Vars) (n nb nd : String) (v : Var) (ds : List (String × Nat))
    (hv : vs.lookup n = some v) (hb : v.bounds = none) (hd : v.dims = some ds) (he : v.empty = true)
    (hnew : vs.lookup nb = none) :
    (∀ rows, v.val = .mat rows → ∃ vs' b, setExtrapolated n nb nd vs = (vs', none) ∧
      vs'.lookup n = some { v with bounds := some nb } ∧ vs'.lookup nb = some b ∧ b.dims = some (ds ++ [(nd, 4)]) ∧
      b.val = .absent ∧ b.empty = true) ∧
    (∀ l, v.val = .vec l → ∃ vs' b, setExtrapolated n nb nd vs = (vs', none) ∧
      vs'.lookup n = some { v with bounds := some nb } ∧ vs'.lookup nb = some b ∧ b.dims = some (ds ++ [(nd, 2)]) ∧
      b.val = .absent ∧ b.empty = true) := by
  constructor
  · intro rows hval
    obtain ⟨h1, h2, h3, _⟩ := set_new vs n nb nd v ds .absent 4 hv hb hd (by simp [boundsValue, hval, he]) hnew
    exact ⟨_, _, h1, h2, h3, rfl, rfl, he⟩
  · intro l hval
    obtain ⟨h1, h2, h3, _⟩ := set_new vs n nb nd v ds .absent 2 hv hb hd (by simp [boundsValue, hval, he]) hnew
    exact ⟨_, _, h1, h2, h3, rfl, rfl, he⟩

example : ∃ vs' b, setExtrapolated "lon" "lonb" "corners"
      [("lon", { val := .mat [[0, 2], [1, 3]], dims := some [("y", 2), ("x", 2)], bounds := none, empty := false, float := true })] = (vs', none) ∧
    vs'.lookup "lonb" = some b ∧ b.dims = some [("y", 2), ("x", 2), ("corners", 4)] ∧
    b.val = .quads [[⟨-3 / 2, 1 / 2, 3 / 2, -1 / 2⟩, ⟨1 / 2, 5 / 2, 7 / 2, 3 / 2⟩], [⟨-1 / 2, 3 / 2, 5 / 2, 1 / 2⟩, ⟨3 / 2, 7 / 2, 9 / 2, 5 / 2⟩]] :=
  ⟨_, _, rfl, rfl, rfl, by decide +kernel⟩

/-- C103, refusals that change nothing: a variable with bounds, without dimensions, with a single value in two dimensions or
with fewer than two values in one. -/
theorem C103_refused (vs : Vars) (n nb nd : String) (v : Var) (hv : vs.lookup n = some v) :
    (v.bounds ≠ none → setExtrapolated n nb nd vs = (vs, some .alreadyBounds)) ∧
    (v.bounds = none → v.dims = none → setExtrapolated n nb nd vs = (vs, some .dimensionsRequired)) ∧
    (v.bounds = none → v.dims ≠ none → v.empty = false → ∀ x, v.val = .mat [[x]] →
      setExtrapolated n nb nd vs = (vs, some .singleElement)) ∧
    (v.bounds = none → v.dims ≠ none → v.empty = false → ∀ l, l.length < 2 → v.val = .vec l →
      setExtrapolated n nb nd vs = (vs, some .tooShort)) := by
  unfold setExtrapolated
  rw [hv]
  simp only
  refine ⟨?_, ?_, ?_, ?_⟩
  · intro h
    cases hb : v.bounds with
    | none => exact absurd hb h
    | some b => exact if_pos rfl
  · intro hb hd; simp [hb, hd]
  · intro hb hd he x hx
    cases hds : v.dims with
    | none => exact absurd hds hd
    | some ds =>
      simp [hb, boundsValue, hx, he, ncol, extrapolatedCorners]
  · intro hb hd he l hl hx
    cases hds : v.dims with
    | none => exact absurd hds hd
    | some ds =>
      simp [hb, boundsValue, hx, he, boundsFrom1dSt, boundsVectorSt, hl]

/-- C103, requests: with `interpolate_spatial_bounds`, the coordinate vectors of a grid without bounds both get their cells;
nothing else changes. -/
theorem C103_request (vs : Vars) (suffix nx ny : String) (x y : Var) (lx ly : List Rat) (dx dy : List (String × Nat))
    (cx cy : List (Rat × Rat)) (hne : nx ≠ ny)
    (hx : vs.lookup nx = some x) (hxv : x.val = .vec lx) (hxb : x.bounds = none) (hxd : x.dims = some dx)
    (hxe : x.empty = false) (hxf : x.float = true) (hxc : boundsFrom1d lx = .ok cx)
    (hy : vs.lookup ny = some y) (hyv : y.val = .vec ly) (hyb : y.bounds = none) (hyd : y.dims = some dy)
    (hye : y.empty = false) (hyf : y.float = true) (hyc : boundsFrom1d ly = .ok cy)
    (hnx : vs.lookup (nx ++ "_" ++ suffix) = none) (hny : vs.lookup (ny ++ "_" ++ suffix) = none) :
    ∃ vs' bx by_, requestExtrapolated suffix nx ny vs = (vs', none) ∧
      vs'.lookup nx = some { x with bounds := some (nx ++ "_" ++ suffix) } ∧
      vs'.lookup ny = some { y with bounds := some (ny ++ "_" ++ suffix) } ∧
      vs'.lookup (nx ++ "_" ++ suffix) = some bx ∧ bx.val = .pairs cx ∧
      vs'.lookup (ny ++ "_" ++ suffix) = some by_ ∧ by_.val = .pairs cy ∧
      (∀ z, z ≠ nx → z ≠ ny → z ≠ nx ++ "_" ++ suffix → z ≠ ny ++ "_" ++ suffix → vs'.lookup z = vs.lookup z) := by
  obtain ⟨v1, b1, e1, f1, g1, _, k1, o1⟩ :=
    C103_vector_variable vs nx (nx ++ "_" ++ suffix) suffix x lx dx cx hx hxv hxb hxd hxe hxf hnx hxc
  have n1 : ny ≠ nx ++ "_" ++ suffix := by intro h; rw [h, hnx] at hy; cases hy
  have n2 : nx ≠ ny ++ "_" ++ suffix := by intro h; rw [h, hny] at hx; cases hx
  have n3 : ny ++ "_" ++ suffix ≠ nx ++ "_" ++ suffix := by
    intro h
    apply hne
    have := congrArg String.toList h
    simp only [String.toList_append] at this
    have := List.append_cancel_right this
    have := List.append_cancel_right this
    exact (String.toList_inj.1 this).symm
  have n4 : ny ++ "_" ++ suffix ≠ nx := fun h => n2 h.symm
  obtain ⟨v2, b2, e2, f2, g2, _, k2, o2⟩ :=
    C103_vector_variable v1 ny (ny ++ "_" ++ suffix) suffix y ly dy cy (by rw [o1 ny (Ne.symm hne) n1, hy]) hyv hyb hyd hye hyf
      (by rw [o1 _ n4 n3, hny]) hyc
  refine ⟨v2, b1, b2, ?_, ?_, f2, ?_, k1, g2, k2, ?_⟩
  · unfold requestExtrapolated gridExtrapolated
    rw [e1]
    simp only
    rw [e2]
  · rw [o2 nx hne n2, f1]
  · rw [o2 _ (Ne.symm n1) (Ne.symm n3), g1]
  · intro z h1 h2 h3 h4
    rw [o2 z h2 h4, o1 z h1 h3]

/-- C103, requests: a grid whose x coordinate has bounds is left as it is, and the request goes on. -/
theorem C103_request_with_bounds (vs : Vars) (suffix nx ny : String) (x : Var) (hx : vs.lookup nx = some x)
    (hb : x.bounds ≠ none) : requestExtrapolated suffix nx ny vs = (vs, none) := by
  unfold requestExtrapolated gridExtrapolated
  rw [(C103_refused vs nx (nx ++ "_" ++ suffix) suffix x hx).1 hb]

/-- A coordinate vector of floats. -/
def vectorVar (l : List Rat) (d : String) (bounds : Option String) : Var :=
  { val := .vec l, dims := some [(d, l.length)], bounds := bounds, empty := false, float := true }

example : ∃ vs' bx, requestExtrapolated "ocgis_bounds" "lon" "lat"
      [("lat", vectorVar [40, 38] "lat" none), ("lon", vectorVar [1, 2, 3] "lon" none)] = (vs', none) ∧
    vs'.lookup "lon_ocgis_bounds" = some bx ∧ bx.val = .pairs [(1 / 2, 3 / 2), (3 / 2, 5 / 2), (5 / 2, 7 / 2)] :=
  ⟨_, _, rfl, rfl, by decide +kernel⟩

/-! ### What is not so -/

/-- C103 fails for the position of the outer corners: only the first row tells the direction and the step.  The second row
of this array goes down, but the corners on the left of its first cell are below those on its right. -/
theorem C103_bent_counterexample : ∃ (arr c : Nat → Nat → Rat), extrapolatedCorners id 2 2 arr = .ok c ∧
    arr 0 0 < arr 0 1 ∧ arr 1 1 < arr 1 0 ∧ c 1 0 < c 1 1 ∧ c 2 0 < c 2 1 :=
  ⟨fun i j => if i = 0 then (j : Rat) * 10 else 60 - (j : Rat) * 30, _, rfl, by decide +kernel⟩

/-- C103 fails for a grid with one row: its y coordinate is the same on both sides, so the cells have no height, while the
same coordinates as vectors are refused. -/
theorem C103_strip_counterexample : (∃ c, extrapolatedCorners id 1 3 (fun _ _ => 40) = .ok c ∧ ∀ i j, i ≤ 1 → j ≤ 3 → c i j = 40) ∧
    boundsFrom1d [40] = .error .valueError := by
  refine ⟨⟨_, rfl, ?_⟩, rfl⟩
  intro i j hi hj
  have h : ∀ j ∈ List.range 4, (match extrapolatedCorners id 1 3 (fun _ _ => 40) with | .ok c => c 0 j | .error _ => 0) = 40 := by
    decide +kernel
  exact h j (List.mem_range.2 (by omega))

/-- C103 fails for the two forms of a rectilinear grid with uneven spacing: the coordinate vector and the same coordinates
in two dimensions have different outer edges. -/
theorem C103_two_forms_counterexample :
    boundsFrom1d [0, 1, 3, 4] = .ok [(-1, 1 / 2), (1 / 2, 2), (2, 7 / 2), (7 / 2, 5)] ∧
    ∃ c, extrapolatedCorners id 2 4 (fun _ j => [0, 1, 3, 4].getD j 0) = .ok c ∧
      c 0 0 = -5 / 6 ∧ c 0 1 = 1 / 2 ∧ c 0 2 = 2 ∧ c 0 3 = 7 / 2 ∧ c 0 4 = 29 / 6 := by
  refine ⟨by decide +kernel, _, rfl, by decide +kernel⟩

/-- C103 fails for integers: the corners are cut off to integers, and these centres lie on the edge of their cells; the
corners of these arrays are even the centres themselves. -/
theorem C103_integers_counterexample :
    boundsFrom1dSt cut [1, 2, 3] = .ok [(0, 1), (1, 2), (2, 3)] ∧
    (∃ c, extrapolatedCorners cut 2 2 (fun _ j => (j : Rat)) = .ok c ∧ c 1 1 = 0 ∧ c 1 2 = 1) := by
  refine ⟨by decide +kernel, _, rfl, by decide +kernel⟩

/-- C103 fails for a name that is taken: the call is refused, but the variable has been given the other variable as its
bounds. -/
theorem C103_name_counterexample :
    setExtrapolated "lon" "b" "nb" [("lon", vectorVar [1, 2] "lon" none), ("b", { val := .other, dims := none, bounds := none, empty := false, float := true })] =
      ([("lon", vectorVar [1, 2] "lon" (some "b")), ("b", { val := .other, dims := none, bounds := none, empty := false, float := true })], some .inCollection) := by
  decide +kernel

/-- C103 fails for grids with bounds on one coordinate: with bounds on x, y gets none and the request goes on without them;
and when y is refused x keeps its new bounds. -/
theorem C103_half_counterexample :
    (requestExtrapolated "ocgis_bounds" "lon" "lat"
      [("lat", vectorVar [40, 38] "lat" none), ("lon", vectorVar [1, 2, 3] "lon" (some "lonb"))] =
      ([("lat", vectorVar [40, 38] "lat" none), ("lon", vectorVar [1, 2, 3] "lon" (some "lonb"))], none)) ∧
    (requestExtrapolated "ocgis_bounds" "lon" "lat"
      [("lat", vectorVar [40] "lat" none), ("lon", vectorVar [1, 2, 3] "lon" none)]).2 = some .tooShort ∧
    ((requestExtrapolated "ocgis_bounds" "lon" "lat"
      [("lat", vectorVar [40] "lat" none), ("lon", vectorVar [1, 2, 3] "lon" none)]).1.lookup "lon").map (·.bounds) =
        some (some "lon_ocgis_bounds") := by
  refine ⟨by decide +kernel, by decide +kernel, by decide +kernel⟩

example : (∃ c, extrapolatedCorners id 3 2 (fun i j => (i : Rat) * 2 - j) = .ok c ∧ c 0 0 = -1 / 2 ∧ c 3 2 = 7 / 2) :=
  ⟨_, rfl, by decide +kernel, by decide +kernel⟩

end Ocgis.Props
