import Verif.Proofs.CfMeta
/-!
# C80: the coordinates found in the metadata of a file
-/
namespace Ocgis.Props
open Ocgis Ocgis.CfMeta Ocgis.Spec

/-- **C80.** An axis has the coordinate variable that is the only one that says it is the axis, or else the only one with a usual name. -/
theorem C80_axis (strict : Bool) (vars : Vars) (hw : FileMeta vars) (m : Map) (h : createMap strict false vars = .ok m) (a : Axis)
    (k : String) : (∃ e, m a = some e ∧ e.coord = k) ↔ IsCoord strict "axis" (axisText a) a vars k := by
  have hf := unrotated_at h a
  have hi := fullEntry_iff hw strict _ _ a hf
  constructor
  · rintro ⟨e, he, rfl⟩; exact ((hi e).1 he).1
  · intro hc
    exact fullEntry_some hw hf hc

/-- **C80.** The bounds of an axis are those that its coordinate variable gives, if there is such a variable. -/
theorem C80_bounds (strict : Bool) (vars : Vars) (hw : FileMeta vars) (m : Map) (h : createMap strict false vars = .ok m) (a : Axis)
    (e : Entry) (he : m a = some e) (v : VarMeta) (hv : (e.coord, v) ∈ vars) (b : String) :
    e.bounds = some b ↔ GivesBounds a v b ∧ ∃ w, (b, w) ∈ vars := by
  obtain ⟨-, v', hm, -, hb⟩ := (fullEntry_iff hw strict _ _ a (unrotated_at h a) e).1 he
  have hl := (cfLookup_iff hw.1 _ v).2 hv
  rw [(cfLookup_iff hw.1 _ v').2 hm] at hl
  cases hl
  obtain ⟨-, as, ha⟩ := hw.2 _ _ hv
  exact boundsOf_iff hw ha a hb b

/-- **C80, in part.** The dimensions of an axis are those of its coordinate variable; of a coordinate variable of x or y with several
dimensions it is the second or the first.  What is missing: that this is the right one; see `C80_transposed_counterexample`. -/
theorem C80_dimensions_partial (strict : Bool) (vars : Vars) (hw : FileMeta vars) (m : Map) (h : createMap strict false vars = .ok m)
    (a : Axis) (e : Entry) (he : m a = some e) (v : VarMeta) (hv : (e.coord, v) ∈ vars) : DimOf strict a v.dims e.dims := by
  obtain ⟨-, v', hm, hd, -⟩ := (fullEntry_iff hw strict _ _ a (unrotated_at h a) e).1 he
  have hl := (cfLookup_iff hw.1 _ v).2 hv
  rw [(cfLookup_iff hw.1 _ v').2 hm] at hl
  cases hl
  rw [hd]
  exact repDims_spec strict a v.dims

/-- **C80.** The metadata of a file are refused only if the time coordinate has both bounds and a climatology. -/
theorem C80_refused (strict : Bool) (vars : Vars) (hw : FileMeta vars) (e : PyErr) :
    createMap strict false vars = .error e ↔ e = .valueError ∧ ∃ k v, IsCoord strict "axis" "T" .T vars k ∧ (k, v) ∈ vars ∧
      (∃ b, HasAttr v "bounds" b) ∧ ∃ c, HasAttr v "climatology" c := by
  rw [createMap_error hw, fullEntry_error hw]
  simp

/-- **C80.** With a rotated pole that is not wanted, the coordinate variables of x and y are those with the standard names of longitude
and latitude; where there are none, and for the other axes, nothing changes. -/
theorem C80_rotated (strict : Bool) (vars : Vars) (hw : FileMeta vars) (m₀ m : Map) (h₀ : createMap strict false vars = .ok m₀)
    (h : createMap strict true vars = .ok m) :
    (∀ k, IsCoord strict "standard_name" "longitude" .X vars k → ∃ e, m .X = some e ∧ e.coord = k) ∧
    (∀ k, IsCoord strict "standard_name" "latitude" .Y vars k → ∃ e, m .Y = some e ∧ e.coord = k) ∧
    ((∀ k, ¬ IsCoord strict "standard_name" "longitude" .X vars k) → m .X = m₀ .X) ∧
    ((∀ k, ¬ IsCoord strict "standard_name" "latitude" .Y vars k) → m .Y = m₀ .Y) ∧
    m .R = m₀ .R ∧ m .T = m₀ .T ∧ m .Z = m₀ .Z := by
  have key : ∀ a r, swapped strict true a vars = .ok r → m a = (match r with | none => m₀ a | some e => some e) := by
    intro a r hr
    have h1 := createMap_at h a
    unfold finalEntry at h1
    rw [text_eq, unrotated_at h₀ a] at h1
    simp only [hr] at h1
    cases r <;> simpa using h1.symm
  have hX : ∃ r, swapped strict true .X vars = .ok r := by
    cases hs : swapped strict true .X vars with
    | ok r => exact ⟨r, rfl⟩
    | error e => exact absurd ((fullEntry_error hw _ _ _ _ _).1 hs).2.1 (by decide)
  have hY : ∃ r, swapped strict true .Y vars = .ok r := by
    cases hs : swapped strict true .Y vars with
    | ok r => exact ⟨r, rfl⟩
    | error e => exact absurd ((fullEntry_error hw _ _ _ _ _).1 hs).2.1 (by decide)
  obtain ⟨rx, hrx⟩ := hX
  obtain ⟨ry, hry⟩ := hY
  refine ⟨?_, ?_, ?_, ?_, key .R none rfl, key .T none rfl, key .Z none rfl⟩
  · intro k hk
    obtain ⟨e, he, hk⟩ := fullEntry_some hw hrx hk
    exact ⟨e, by rw [key .X rx hrx, he], hk⟩
  · intro k hk
    obtain ⟨e, he, hk⟩ := fullEntry_some hw hry hk
    exact ⟨e, by rw [key .Y ry hry, he], hk⟩
  · intro hn
    rw [key .X rx hrx]
    cases rx with
    | none => rfl
    | some e => exact absurd ((fullEntry_iff hw _ _ _ _ hrx e).1 rfl).1 (hn _)
  · intro hn
    rw [key .Y ry hry]
    cases ry with
    | none => rfl
    | some e => exact absurd ((fullEntry_iff hw _ _ _ _ hry e).1 rfl).1 (hn _)

/-- **C80.** The order of the variables in the file does not matter. -/
theorem C80_order (strict rotated : Bool) (vars vars' : Vars) (hw : FileMeta vars) (hp : vars.Perm vars') :
    createMap strict rotated vars' = createMap strict rotated vars := by
  have : ∀ a, finalEntry strict rotated vars' a = finalEntry strict rotated vars a := by
    intro a
    unfold finalEntry swapped
    simp only [fullEntry_perm hw hp]
  unfold createMap
  simp only [this]

/-- **C80, in part.** If time, x and y each have one dimension and these are different, the data variables are the variables with all
three dimensions, in the order of the file.  What is missing: data variables on other coordinates; see the counterexamples. -/
theorem C80_data_variables_partial (m : Map) (vars : Vars) (t x y : Entry) (dt dx dy : String) (ht : m .T = some t) (hx : m .X = some x)
    (hy : m .Y = some y) (hdt : t.dims = [dt]) (hdx : x.dims = [dx]) (hdy : y.dims = [dy]) (h1 : dt ≠ dx) (h2 : dt ≠ dy) (h3 : dx ≠ dy) :
    (∀ k, k ∈ dataVariables m vars ↔ ∃ v, (k, v) ∈ vars ∧ dt ∈ v.dims ∧ dx ∈ v.dims ∧ dy ∈ v.dims) ∧
    (dataVariables m vars).Sublist (vars.map Prod.fst) := by
  have hd : distinct (t.dims ++ x.dims ++ y.dims) = [dt, dx, dy] := by
    rw [hdt, hdx, hdy]
    simp [distinct, h1, h2, h3]
  unfold dataVariables
  rw [ht, hx, hy]
  simp only [hd]
  constructor
  · intro k
    simp only [List.mem_map, List.mem_filter, decide_eq_true_eq]
    have hk : ∀ l : List String, (([dt, dx, dy].filter l.contains).length = 3) ↔ dt ∈ l ∧ dx ∈ l ∧ dy ∈ l := by
      intro l
      by_cases a : dt ∈ l <;> by_cases b : dx ∈ l <;> by_cases c : dy ∈ l <;> simp [a, b, c]
    constructor
    · rintro ⟨⟨k', v⟩, ⟨hm, hl⟩, rfl⟩
      exact ⟨v, hm, (hk _).1 hl⟩
    · rintro ⟨v, hm, hl⟩
      exact ⟨(k, v), ⟨hm, (hk _).2 hl⟩, rfl⟩
  · exact List.filter_sublist.map _

/-- **C80.** Without a coordinate variable of time, x or y there are no data variables. -/
theorem C80_axes_needed (m : Map) (vars : Vars) (h : m .T = none ∨ m .X = none ∨ m .Y = none) : dataVariables m vars = [] := by
  unfold dataVariables
  rcases h with h | h | h
  · rw [h]
  · rw [h]; cases m .T <;> rfl
  · rw [h]; cases m .T <;> cases m .X <;> rfl

/-- **C80, in part.** The dimension that is distributed over the processes is the longer of those of x and y, and that of x if they are
equally long; with the other decomposition it is that of x.  What is missing: coordinates without dimensions, for which this is an
error; see `C80_scalar_counterexample`. -/
theorem C80_distributed_partial (esmf : Bool) (m : Map) (sizes : List (String × Nat)) (x y : Entry) (dx dy : String)
    (xs ys : List String) (nx ny : Nat) (hx : m .X = some x) (hy : m .Y = some y) (hdx : x.dims = dx :: xs) (hdy : y.dims = dy :: ys)
    (hnx : sizes.lookup dx = some nx) (hny : sizes.lookup dy = some ny) :
    ∃ d n, distributedName esmf m sizes = .ok (some d) ∧ (d = dx ∨ d = dy) ∧ sizes.lookup d = some n ∧
      (esmf = true → d = dx) ∧ (esmf = false → nx ≤ n ∧ ny ≤ n ∧ (nx = ny → d = dx)) := by
  unfold distributedName
  rw [hx, hy]
  simp only [hdx, hdy, hnx, hny]
  cases esmf
  · by_cases h : nx < ny
    · exact ⟨dy, ny, by simp [h], Or.inr rfl, hny, by simp, fun _ => ⟨by omega, by omega, by omega⟩⟩
    · exact ⟨dx, nx, by simp [h], Or.inl rfl, hnx, by simp, fun _ => ⟨by omega, by omega, fun _ => rfl⟩⟩
  · exact ⟨dx, nx, by simp, Or.inl rfl, hnx, by simp, by simp⟩

/-- **C80.** Without coordinates of x or y nothing is distributed. -/
theorem C80_not_distributed (esmf : Bool) (m : Map) (sizes : List (String × Nat)) (h : m .X = none ∨ m .Y = none) :
    distributedName esmf m sizes = .ok none := by
  unfold distributedName
  rcases h with h | h
  · rw [h]
  · rw [h]; cases m .X <;> rfl

/-- **C80.** The spatial mask is the first variable with that role. -/
theorem C80_mask (vars : Vars) (k : String) :
    spatialMask vars = some k ↔ ∃ pre v post, vars = pre ++ (k, v) :: post ∧ HasAttr v "ocgis_role" "spatial_mask" ∧
      ∀ p ∈ pre, ¬ HasAttr p.2 "ocgis_role" "spatial_mask" := by
  unfold spatialMask
  simp only [Option.map_eq_some_iff, List.find?_eq_some_iff_append, decide_eq_true_eq, Bool.not_eq_true', decide_eq_false_iff_not,
    attrOf_iff]
  constructor
  · rintro ⟨⟨k', v⟩, ⟨h1, pre, post, h2, h3⟩, rfl⟩
    exact ⟨pre, v, post, h2, h1, h3⟩
  · rintro ⟨pre, v, post, h2, h1, h3⟩
    exact ⟨(k, v), ⟨h1, pre, post, h2, h3⟩, rfl⟩

/-- **C80, in part.** A dimension map given by the user keeps its coordinate variables and the dimensions that are given; dimensions that
are missing are those of the variable in the file.  The bounds are kept if the dimensions are given.  What is missing: the bounds in the
other case; see `C80_user_bounds_counterexample`. -/
theorem C80_user_map_partial (vars : Vars) (m : Map) (a : Axis) :
    (m a = none → updateDims vars m a = none) ∧
    ∀ e, m a = some e → ∃ e', updateDims vars m a = some e' ∧ e'.coord = e.coord ∧ (e.dims ≠ [] → e' = e) ∧
      (e.dims = [] → ∀ v, vars.lookup e.coord = some v → e'.dims = v.dims) ∧
      (e.dims = [] → vars.lookup e.coord = none → e' = e) := by
  unfold updateDims
  constructor
  · intro h; rw [h]
  · intro e h
    rw [h]
    simp only
    split
    case isTrue hd =>
      cases hl : vars.lookup e.coord with
      | none => exact ⟨e, rfl, rfl, fun _ => rfl, by simp, fun _ _ => rfl⟩
      | some v =>
        simp only
        split
        case isTrue hv =>
          refine ⟨e, rfl, rfl, fun _ => rfl, fun _ v' h' => ?_, by simp⟩
          cases h'
          rw [hd, hv]
        case isFalse hv =>
          refine ⟨_, rfl, rfl, fun h => absurd hd h, fun _ v' h' => ?_, by simp⟩
          cases h'
          rfl
    case isFalse hd => exact ⟨e, rfl, rfl, fun _ => rfl, fun h => absurd h hd, fun h => absurd h hd⟩

/-- **C80.** Completing a dimension map twice is the same as completing it once. -/
theorem C80_user_map_twice (vars : Vars) (m : Map) : updateDims vars (updateDims vars m) = updateDims vars m := by
  funext a
  obtain ⟨h0, h1⟩ := C80_user_map_partial vars m a
  obtain ⟨g0, g1⟩ := C80_user_map_partial vars (updateDims vars m) a
  cases hm : m a with
  | none => exact (g0 (h0 hm)).trans (h0 hm).symm
  | some e =>
    obtain ⟨e', he', hc, hk, hf, hn⟩ := h1 e hm
    obtain ⟨e'', he'', hc', hk', hf', hn'⟩ := g1 e' he'
    by_cases hd' : e'.dims = []
    · have : updateDims vars m a = m a := by
        by_cases hd : e.dims = []
        · unfold updateDims
          rw [hm]
          simp only [hd, if_true]
          cases hl : vars.lookup e.coord with
          | none => rfl
          | some v =>
            have := hf hd v hl
            rw [hd'] at this
            simp [← this]
        · rw [he', hk hd, hm]
      exact updateDims_congr vars this
    · exact (he''.trans (by rw [hk' hd'])).trans he'.symm

/-- The hypotheses of the theorems hold for a usual file, and the results are what one expects. -/
example : FileMeta usualFile ∧
    ∃ m, createMap false false usualFile = .ok m ∧ m .T = some ⟨"time", ["time"], some "time_bnds"⟩ ∧
      m .X = some ⟨"lon", ["lon"], some "lon_bnds"⟩ ∧ m .Y = some ⟨"lat", ["lat"], none⟩ ∧ m .Z = none ∧
      dataVariables m usualFile = ["tas"] ∧ distributedName false m [("time", 10), ("lat", 4), ("lon", 3)] = .ok (some "lat") ∧
      spatialMask usualFile = some "mask" :=
  ⟨usualFile_meta, _, rfl, by decide, by decide, by decide, by decide, by decide, by decide, by decide⟩

/-- With a strict reading the latitude is not found. -/
example : ∃ m, createMap true false usualFile = .ok m ∧ m .Y = none ∧ dataVariables m usualFile = [] :=
  ⟨_, rfl, by decide, by decide⟩

/-- A file with a rotated pole. -/
def rotatedFile : Vars :=
  [("rlon", ⟨"rlon", ["rlon"], some [("axis", "X")]⟩), ("rlat", ⟨"rlat", ["rlat"], some [("axis", "Y")]⟩),
   ("lon", ⟨"lon", ["rlat", "rlon"], some [("standard_name", "longitude")]⟩),
   ("lat", ⟨"lat", ["rlat", "rlon"], some [("standard_name", "latitude")]⟩)]

example : ∃ m₀ m, createMap false false rotatedFile = .ok m₀ ∧ createMap false true rotatedFile = .ok m ∧
    m₀ .X = some ⟨"rlon", ["rlon"], none⟩ ∧ m .X = some ⟨"lon", ["rlon"], none⟩ ∧ m .Y = some ⟨"lat", ["rlat"], none⟩ :=
  ⟨_, _, rfl, rfl, by decide, by decide, by decide⟩

/-- A time coordinate with both bounds and a climatology is refused. -/
example : createMap false false [("time", ⟨"time", ["time"], some [("bounds", "b"), ("climatology", "c")]⟩)] = .error .valueError := by
  rfl

/-- **C80, counterexample.** Two-dimensional coordinates whose first dimension is that of x: the map has the dimension of y for x, and
that of x for y. -/
theorem C80_transposed_counterexample :
    ∃ (vars : Vars) (m : Map), FileMeta vars ∧ createMap false false vars = .ok m ∧
      (∃ v, ("lon", v) ∈ vars ∧ v.dims = ["x", "y"]) ∧ (m .X).map Entry.dims = some ["y"] ∧ (m .Y).map Entry.dims = some ["x"] := by
  refine ⟨[("lon", ⟨"lon", ["x", "y"], some []⟩), ("lat", ⟨"lat", ["x", "y"], some []⟩)], _, ⟨by decide, ?_⟩, rfl,
    ⟨_, List.mem_cons_self, rfl⟩, by decide, by decide⟩
  intro k v h
  simp only [List.mem_cons, Prod.mk.injEq, List.not_mem_nil, or_false] at h
  rcases h with ⟨rfl, rfl⟩ | ⟨rfl, rfl⟩ <;> exact ⟨rfl, _, rfl⟩

/-- **C80, counterexample.** A variable on time and a list of points is not a data variable, although time, longitude and latitude are
found. -/
theorem C80_points_counterexample :
    ∃ (vars : Vars) (m : Map), createMap false false vars = .ok m ∧ (m .T).isSome ∧ (m .X).isSome ∧ (m .Y).isSome ∧
      (∃ v, ("tas", v) ∈ vars ∧ v.dims = ["time", "n"]) ∧ dataVariables m vars = [] :=
  ⟨[("tas", ⟨"tas", ["time", "n"], some []⟩), ("time", ⟨"time", ["time"], some []⟩), ("lon", ⟨"lon", ["n"], some []⟩),
    ("lat", ⟨"lat", ["n"], some []⟩)], _, rfl, by decide, by decide, by decide, ⟨_, List.mem_cons_self, rfl⟩, by decide⟩

/-- **C80, counterexample.** With times of two dimensions, as for forecasts, a variable with all dimensions of time, y and x is not a
data variable, and one that has no dimension of y is. -/
theorem C80_forecast_counterexample :
    ∃ (vars : Vars) (m : Map), createMap false false vars = .ok m ∧
      (∃ v, ("tas", v) ∈ vars ∧ v.dims = ["run", "lead", "lat", "lon"]) ∧
      (∃ v, ("zonal", v) ∈ vars ∧ v.dims = ["run", "lead", "lon"]) ∧ dataVariables m vars = ["zonal"] :=
  ⟨[("tas", ⟨"tas", ["run", "lead", "lat", "lon"], some []⟩), ("zonal", ⟨"zonal", ["run", "lead", "lon"], some []⟩),
    ("time", ⟨"time", ["run", "lead"], some []⟩), ("lon", ⟨"lon", ["lon"], some []⟩), ("lat", ⟨"lat", ["lat"], some []⟩)], _, rfl,
    ⟨_, List.mem_cons_self, rfl⟩, ⟨_, List.mem_cons_of_mem _ List.mem_cons_self, rfl⟩, by decide⟩

/-- **C80, counterexample.** A height without dimensions is passed over because it has none, and then taken because of its name. -/
theorem C80_scalar_height_counterexample :
    ∃ (vars : Vars) (m : Map) (v : VarMeta), createMap false false vars = .ok m ∧ vars = [("height", v)] ∧ v.dims = [] ∧
      HasAttr v "axis" "Z" ∧ m .Z = some ⟨"height", [], none⟩ :=
  ⟨_, _, ⟨"height", [], some [("axis", "Z")]⟩, rfl, rfl, rfl, ⟨_, rfl, rfl⟩, by decide⟩

/-- **C80, counterexample.** A file with one place, whose longitude and latitude have no dimensions, cannot be distributed. -/
theorem C80_scalar_counterexample :
    ∃ (vars : Vars) (m : Map), createMap false false vars = .ok m ∧ (m .X).isSome ∧ (m .Y).isSome ∧
      distributedName false m [("time", 10)] = .error .indexError :=
  ⟨[("time", ⟨"time", ["time"], some []⟩), ("lon", ⟨"lon", [], some []⟩), ("lat", ⟨"lat", [], some []⟩)], _, rfl, by decide, by decide,
    by decide⟩

/-- **C80, counterexample.** The user names a coordinate variable and its bounds but not its dimension: the bounds are forgotten. -/
theorem C80_user_bounds_counterexample :
    ∃ (vars : Vars) (m : Map), m .X = some ⟨"lon", [], some "lon_bnds"⟩ ∧ updateDims vars m .X = some ⟨"lon", ["lon"], none⟩ :=
  ⟨usualFile, fun a => if a = .X then some ⟨"lon", [], some "lon_bnds"⟩ else none, rfl, by decide⟩

end Ocgis.Props
