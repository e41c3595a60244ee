import Verif.Model.Coords
/-!
# Extrapolating cell bounds from cell centres

Floating point numbers are rationals.  An array with two dimensions is its shape and a function of the two indices, as in
`Model/Coords.lean`; the variables of a collection hold lists.  Masks, attributes other than the name of the bounds, and
variables with three or more dimensions are not modelled.
-/
namespace Ocgis.Extrapolate
open Ocgis.Coords

/-- `np.abs`. -/
def absR (x : Rat) : Rat := if x < 0 then -x else x

/-- The first `k` values of a line of an array: `arr[:, 0]` or `arr[0, :]`. -/
def line (k : Nat) (f : Nat → Rat) : List Rat := (List.range k).map f

/-- `get_is_increasing(vec)` for a vector of at least two elements (util/helpers.py:524-544). -/
def isIncreasing (v : List Rat) : Bool := decide (v.headD 0 < v.getLastD 0)

/-- `np.mean(np.abs(np.diff(vec)))` (util/helpers.py:383-384). -/
def meanAbsDiff (v : List Rat) : Rat := mean ((diffs v).map absR)

/-- The refusals of `set_extrapolated_bounds`: `BoundsAlreadyAvailableError`, `DimensionsRequiredError`,
`SingleElementError`, `ValueError` and `VariableInCollectionError`. -/
inductive BErr
  | alreadyBounds
  | dimensionsRequired
  | singleElement
  | tooShort
  | inCollection
  deriving DecidableEq, Repr

/-- A value stored in an array of the same data type as the centres: a float is kept, a fraction is cut off in an integer
array. -/
def cut (x : Rat) : Rat := if x < 0 then -((-x).floor : Rat) else (x.floor : Rat)

/-- util/helpers.py:368-375: the corners array of `m + 1` by `n + 1` zeros, its interior filled with the means of the two
by two windows.  `st` is what the storage makes of a value (`id` for floats, `cut` for integers). -/
def interior (st : Rat → Rat) (m n : Nat) (arr : Nat → Nat → Rat) : Nat → Nat → Rat := fun i j =>
  if 1 ≤ i ∧ i < m ∧ 1 ≤ j ∧ j < n then
    st ((arr (i - 1) (j - 1) + arr (i - 1) j + arr i (j - 1) + arr i j) / 4)
  else 0

/-- util/helpers.py:386-393: the first and the last column, without the extreme corners.  A pass of the loop writes two
elements of its row and reads two others of the same row, so the passes are taken together. -/
def fillRows (st : Rat → Rat) (m n : Nat) (inc : Bool) (d : Rat) (c : Nat → Nat → Rat) : Nat → Nat → Rat := fun i j =>
  if 1 ≤ i ∧ i < m ∧ j = 0 then st (if inc then c i 1 - d else c i 1 + d)
  else if 1 ≤ i ∧ i < m ∧ j = n then st (if inc then c i (n - 1) + d else c i (n - 1) - d)
  else c i j

/-- util/helpers.py:395-402: the first and the last row, without the extreme corners. -/
def fillCols (st : Rat → Rat) (m n : Nat) (inc : Bool) (d : Rat) (c : Nat → Nat → Rat) : Nat → Nat → Rat := fun i j =>
  if 1 ≤ j ∧ j < n ∧ i = 0 then st (if inc then c 1 j - d else c 1 j + d)
  else if 1 ≤ j ∧ j < n ∧ i = m then st (if inc then c (m - 1) j + d else c (m - 1) j - d)
  else c i j

/-- util/helpers.py:404-411: the extreme corners, from the elements beside them in their rows. -/
def fillExtremes (st : Rat → Rat) (m n : Nat) (inc : Bool) (d : Rat) (c : Nat → Nat → Rat) : Nat → Nat → Rat := fun i j =>
  if (i = 0 ∨ i = m) ∧ j = 0 then st (if inc then c i 1 - d else c i 1 + d)
  else if (i = 0 ∨ i = m) ∧ j = n then st (if inc then c i (n - 1) + d else c i (n - 1) - d)
  else c i j

/-- util/helpers.py:368-413: the corners of an array with at least two rows and two columns. -/
def fullCorners (st : Rat → Rat) (m n : Nat) (arr : Nat → Nat → Rat) : Nat → Nat → Rat :=
  let rowIncreasing := isIncreasing (line m fun i => arr i 0)
  let colIncreasing := isIncreasing (line n fun j => arr 0 j)
  let rowDiff := meanAbsDiff (line m fun i => arr i 0)
  let colDiff := meanAbsDiff (line n fun j => arr 0 j)
  let c := interior st m n arr
  let c := fillRows st m n colIncreasing colDiff c
  let c := fillCols st m n rowIncreasing rowDiff c
  fillExtremes st m n colIncreasing colDiff c

/-- `get_bounds_vector_from_centroids` (util/helpers.py:224-258) for any storage: the midpoints are stored, the two ends
are not (`np.append` makes a new array). -/
def boundsVectorSt (st : Rat → Rat) (c : List Rat) : Except BErr (List Rat) :=
  if c.length < 2 then .error .tooShort
  else
    let mids := (midpoints c).map st
    let diff := if mids.length = 1 then (diffs c).headD 0 else mean (diffs mids)
    let withFirst := (mids.headD 0 - diff) :: mids
    .ok (withFirst ++ [withFirst.getLastD 0 + diff])

/-- `get_bounds_from_1d` (util/helpers.py:195-221) for any storage. -/
def boundsFrom1dSt (st : Rat → Rat) (c : List Rat) : Except BErr (List (Rat × Rat)) :=
  match boundsVectorSt st c with
  | .error e => .error e
  | .ok mids => .ok ((pairs mids).map fun b => (st b.1, st b.2))

/-- `get_extrapolated_corners_esmf(arr)` for an array of shape `m`, `n` (util/helpers.py:346-413, with
`get_extrapolated_corners_esmf_vector`, 416-432): the result has shape `m + 1`, `n + 1`. -/
def extrapolatedCorners (st : Rat → Rat) (m n : Nat) (arr : Nat → Nat → Rat) : Except BErr (Nat → Nat → Rat) :=
  if m = 1 ∧ n = 1 then .error .singleElement
  else if m = 1 ∨ n = 1 then
    -- `arr.reshape(-1)`, in row order
    let vec := if n = 1 then line m fun i => arr i 0 else line n fun j => arr 0 j
    match boundsVectorSt st vec with
    | .error e => .error e
    | .ok b =>
      let ret : Nat → Nat → Rat := fun _ k => st (b.getD k 0)
      .ok (if n = 1 then fun i j => ret j i else ret)
  else .ok (fullCorners st m n arr)

/-! ## Variables and grids -/

/-- What a variable of the collection holds: a vector or an array of coordinates, their bounds, bounds without values (of
an empty variable), or anything else. -/
inductive Val
  | vec (v : List Rat)
  | mat (rows : List (List Rat))
  | pairs (b : List (Rat × Rat))
  | quads (b : List (List (Corners Rat)))
  | absent
  | other
  deriving DecidableEq, Repr

/-- A variable: its values, its dimensions if it has any, the name of its bounds variable, the flag for the empty
variable of a rank without data, and whether it holds floats. -/
structure Var where
  val : Val
  dims : Option (List (String × Nat))
  bounds : Option String
  empty : Bool
  float : Bool
  deriving DecidableEq, Repr

/-- The variables of a field, by name. -/
abbrev Vars := List (String × Var)

/-- `parent[name] = variable` for a name that is present. -/
def putVar (n : String) (v : Var) (vs : Vars) : Vars := vs.map fun p => if p.1 = n then (n, v) else p

/-- Storage by data type. -/
def storage (float : Bool) : Rat → Rat := if float then id else cut

/-- Element of a list of rows. -/
def elem (rows : List (List Rat)) (i j : Nat) : Rat := ((rows.getD i []).getD j 0)

/-- Number of columns of a list of rows. -/
def ncol (rows : List (List Rat)) : Nat := (rows.headD []).length

/-- variable/base.py:958-968: the values of the bounds and the size of the bounds dimension. -/
def boundsValue (v : Var) : Except BErr (Val × Nat) :=
  match v.val with
  | .mat rows =>
    if v.empty then .ok (.absent, 4)
    else
      match extrapolatedCorners (storage v.float) rows.length (ncol rows) (elem rows) with
      | .error e => .error e
      | .ok c =>
        .ok (.quads ((List.range rows.length).map fun i => (List.range (ncol rows)).map fun j => cellCorners c i j), 4)
  | .vec l =>
    if v.empty then .ok (.absent, 2)
    else
      match boundsFrom1dSt (storage v.float) l with
      | .error e => .error e
      | .ok b => .ok (.pairs b, 2)
  | _ => .ok (.absent, 2)

/-- `set_bounds(value)` (variable/base.py:1450-1453): the variable is told the name first, then the bounds are added to the
collection, which refuses a name it has (`force` is not set). -/
def setBounds (n nb : String) (v b : Var) (vs : Vars) : Vars × Option BErr :=
  let vs' := putVar n { v with bounds := some nb } vs
  if vs'.any (fun p => p.1 == nb) then (vs', some .inCollection) else (vs' ++ [(nb, b)], none)

/-- `Variable.set_extrapolated_bounds(name_variable, name_dimension)` (variable/base.py:945-974) for the variable `n` of
the collection: the collection afterwards and the exception, if any. -/
def setExtrapolated (n nb nd : String) (vs : Vars) : Vars × Option BErr :=
  match vs.lookup n with
  | none => (vs, none)
  | some v =>
    if v.bounds.isSome then (vs, some .alreadyBounds)
    else
      match v.dims with
      | none => (vs, some .dimensionsRequired)
      | some ds =>
        match boundsValue v with
        | .error e => (vs, some e)
        | .ok (val, size) =>
          setBounds n nb v { val := val, dims := some (ds ++ [(nd, size)]), bounds := none, empty := v.empty, float := v.float } vs

/-- `Grid.set_extrapolated_bounds` (spatial/grid.py:794-804): x, then y. -/
def gridExtrapolated (nx ny bx by_ nd : String) (vs : Vars) : Vars × Option BErr :=
  match setExtrapolated nx bx nd vs with
  | (vs', some e) => (vs', some e)
  | (vs', none) => setExtrapolated ny by_ nd vs'

/-- `OcgOperations(interpolate_spatial_bounds=True)`: `_update_bounds_extrapolation_` (ops/engine.py:552-559); `suffix` is
the constant `OCGIS_BOUNDS`.  A variable with bounds is a warning. -/
def requestExtrapolated (suffix nx ny : String) (vs : Vars) : Vars × Option BErr :=
  match gridExtrapolated nx ny (nx ++ "_" ++ suffix) (ny ++ "_" ++ suffix) suffix vs with
  | (vs', some .alreadyBounds) => (vs', none)
  | r => r

end Ocgis.Extrapolate
