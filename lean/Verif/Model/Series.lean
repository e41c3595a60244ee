import Verif.Py
/-!
# Calculations along the time axis

Each definition is for the time series at one place; the code does the same at every place.
-/
namespace Ocgis.Series

/-- A value and whether it is masked. -/
abbrev Cell (α : Type _) := α × Bool

/-! ## Moving windows (calc/library/statistics.py:12-135) -/

/-- The `valid` loop of `_iter_kernel_values_` (statistics.py:106-119): the origins with their slices. The fuel is only there to make the
function total; `none` if it does not suffice. -/
def validWindows (n shift : Nat) : Nat → Nat → Option (List (Nat × Nat × Nat))
  | 0, _ => none
  | fuel + 1, origin =>
    if origin < shift then validWindows n shift fuel (origin + 1)
    else if origin + shift + 1 > n then some []
    else (validWindows n shift fuel (origin + 1)).map ((origin, origin - shift, origin + shift + 1) :: ·)

/-- The `same` loop (statistics.py:120-131). -/
def sameWindows (n shift : Nat) : Nat → Nat → Option (List (Nat × Nat × Nat))
  | 0, _ => none
  | fuel + 1, origin =>
    if origin + 1 = n then some [(origin, origin - shift, origin + shift + 1)]
    else (sameWindows n shift fuel (origin + 1)).map ((origin, origin - shift, origin + shift + 1) :: ·)

/-- `fill[ie, origin, il, :, :] = operation(values_kernel, axis=0)` for each window (statistics.py:55-62). -/
def fillWindows {α : Type _} (op : List (Cell α) → Cell α) (values : List (Cell α)) : List (Cell α) → List (Nat × Nat × Nat) → List (Cell α)
  | fill, [] => fill
  | fill, (o, start, stop) :: ws => fillWindows op values (fill.set o (op ((values.drop start).take (stop - start)))) ws

/-- Mask everything but a range (statistics.py:68-69). -/
def unmaskOnly {α : Type _} (lo hi : Nat) (fill : List (Cell α)) : List (Cell α) :=
  fill.mapIdx fun i c => (c.1, !(decide (lo ≤ i) && decide (i < hi)))

/-- The moving window in mode `valid`. Without a single full window the start of the range is unbound. -/
def windowValid {α : Type _} (op : List (Cell α) → Cell α) (shift : Nat) (values : List (Cell α)) : Res (List (Cell α)) :=
  match validWindows values.length shift (values.length + shift + 1) 0 with
  | none => .error .runtimeError
  | some ws =>
    match ws.head?, ws.getLast? with
    | some f, some l => .ok (unmaskOnly f.1 (l.1 + 1) (fillWindows op values values ws))
    | _, _ => .error .unboundLocal

/-- The moving window in mode `same`, for a series that is not empty. -/
def windowSame {α : Type _} (op : List (Cell α) → Cell α) (shift : Nat) (values : List (Cell α)) : Res (List (Cell α)) :=
  match sameWindows values.length shift values.length 0 with
  | none => .error .indexError
  | some ws => .ok (fillWindows op values values ws)

/-- `MovingWindow.calculate(values, k, operation, mode)` (statistics.py:22-77). -/
def movingWindow {α : Type _} (op : List (Cell α) → Cell α) (mode : String) (k : Nat) (values : List (Cell α)) : Res (List (Cell α)) :=
  if ¬ (mode = "same" ∨ mode = "valid") then .error .assertionError
  else if k % 2 = 0 ∨ k < 3 then .error .assertionError
  else if mode = "valid" then windowValid op ((k - 1) / 2) values
  else windowSame op ((k - 1) / 2) values

/-! ## Durations (calc/library/index/duration.py) -/

/-- The indices where a boolean array is true: `ref[vec]`. -/
def trueIdx (vec : List Bool) : List Nat := (List.range vec.length).filter fun i => vec.getD i false

/-- `np.any(np.diff(ref[vec]) == 1)`. -/
def anyAdjacent : List Nat → Bool
  | a :: b :: rest => (b == a + 1) || anyAdjacent (b :: rest)
  | _ => false

/-- `ref[diff_idx] + 1` (duration.py:73-76): one past the positions that differ from the next. -/
def splitIdx (vec : List Bool) : List Nat :=
  ((List.range vec.length).filter fun i => decide (i + 1 < vec.length) && (vec.getD i false != vec.getD (i + 1) false)).map (· + 1)

/-- `np.array_split(vec, split_idx)` for increasing indices: the slices from each index to the next. -/
def splitAtIdx (vec : List Bool) (idx : List Nat) : List (List Bool) :=
  ((0 :: idx).zip (idx ++ [vec.length])).map fun ab => (vec.drop ab.1).take (ab.2 - ab.1)

/-- `_iter_consecutive_`, at one place (duration.py:70-87), for a series without masked values. -/
def consecutive (vec : List Bool) : List Nat :=
  if anyAdjacent (trueIdx vec) then ((splitAtIdx vec (splitIdx vec)).filter fun a => a.all id).map fun a => a.countP id
  else if vec.any id then [1]
  else [0]

/-- `Duration.calculate`, at one place (duration.py:37-47). -/
def summarise {β : Type _} (op : List Nat → β) (ofNat : Nat → β) (fill : List Nat) : β :=
  if fill.length > 1 then op fill else ofNat (fill.headD 0)

/-- `FrequencyDuration._get_summary_` (duration.py:133-153): each different duration with its count. The order of a set is not
determined; here it is that of the last occurrences. -/
def frequencies : List Nat → List (Nat × Nat)
  | [] => []
  | d :: ds => if d ∈ ds then (frequencies ds).map fun p => if p.1 = d then (d, p.2 + 1) else p else (d, 1) :: frequencies ds

/-! ## Freeze and thaw (calc/library/index/freeze_thaw.py:52-110) -/

/-- `np.cumsum`. -/
def cumsum : Rat → List Rat → List Rat
  | _, [] => []
  | acc, x :: xs => (acc + x) :: cumsum (acc + x) xs

/-- `np.nonzero(np.diff(over) != 0)[0]`: the positions before a change. -/
def crossings (x : List Rat) : List Nat :=
  (List.range (x.length - 1)).filter fun i => decide (x.getD i 0 ≥ 0) != decide (x.getD (i + 1) 0 ≥ 0)

/-- The absolute value. -/
def absR (q : Rat) : Rat := if q < 0 then -q else q

/-- `np.sign`. -/
def signR (q : Rat) : Int := if q < 0 then -1 else if q = 0 then 0 else 1

/-- `np.nonzero(np.abs(d) >= threshold)[0][0]`, if there is one, where `d = cx[ci:] - cx[ci]` (freeze_thaw.py:93-98). -/
def firstReached (cx : List Rat) (threshold : Rat) (ci : Nat) : Option Nat :=
  (List.range (cx.length - ci)).find? fun w => decide (absR (cx.getD (ci + w) 0 - cx.getD ci 0) ≥ threshold)

/-- One crossing (freeze_thaw.py:88-106). `cycles` is in reverse, the last first. -/
def freezeStep (cx : List Rat) (threshold : Rat) (cycles : List Int) (ci : Nat) : List Int :=
  if ci < (cycles.headD 0).natAbs then cycles
  else
    match firstReached cx threshold ci with
    | none => cycles
    | some w =>
      let s := signR (cx.getD (ci + w) 0 - cx.getD ci 0)
      if s ≠ (cycles.headD 0).sign then s * ((w + ci : Nat) : Int) :: cycles else cycles

/-- The events found, in order, each the position of the event, positive for thawing and negative for freezing; the leading zero is left out. -/
def freezeEvents (x : List Rat) (threshold : Rat) : List Int :=
  (((0 :: crossings (0 :: x)).foldl (freezeStep (cumsum 0 (0 :: x)) threshold) [0]).dropLast).reverse

/-- `freezethaw1d(x, threshold)` (freeze_thaw.py:52-110); `none` is not-a-number, for a series without unmasked values. -/
def freezeThaw (x : List (Cell Rat)) (threshold : Rat) : Option Int :=
  if x.all (·.2) then none
  else some ((((0 :: crossings (0 :: ((x.filter fun c => !c.2).map (·.1)))).foldl
    (freezeStep (cumsum 0 (0 :: ((x.filter fun c => !c.2).map (·.1)))) threshold) [0]).length : Int) - 2)

/-! ## Convolution (calc/library/math.py:48-109) -/

/-- `sum_j a[t + m - 1 - j] * v[j]`. -/
def convAt (a v : List Int) (t : Nat) : Int :=
  ((List.range v.length).map fun j => a.getD (t + v.length - 1 - j) 0 * v.getD j 0).sum

/-- `np.convolve(a, v, mode='valid')`: numpy swaps the arguments if the second is longer. -/
def convolveValid (a v : List Int) : List Int :=
  if v.length ≤ a.length then (List.range (a.length - v.length + 1)).map (convAt a v)
  else (List.range (v.length - a.length + 1)).map (convAt v a)

/-- `Convolve1D.calculate(values, v, mode='valid')` at one place (math.py:57-104); `mask0` is the mask at the first time. The slice
`0:-(len(v)-1)` selects nothing for a kernel of length one. -/
def convolve1d (values : List Int) (mask0 : Bool) (v : List Int) : Res (List (Cell Int)) :=
  if v.length = 0 ∨ values.length = 0 then .error .valueError
  else if (convolveValid values v).length > values.length then .error .valueError
  else
    let fill := convolveValid values v ++ List.replicate (values.length - (convolveValid values v).length) 0
    let upTo := if v.length = 1 then 0 else values.length - (v.length - 1)
    .ok (fill.mapIdx fun t x => (x, mask0 || !decide (t < upTo)))

/-! ## Thresholds (calc/library/thresholds.py) -/

/-- `np.ma.sum(idx, axis=0)` of a masked boolean array: the count over the unmasked values, masked if there is none. -/
def maSum (idx : List (Cell Bool)) : Cell Nat := (idx.countP fun c => c.1 && !c.2, idx.all (·.2))

/-- `Threshold.calculate` (thresholds.py:36-57). -/
def threshold (op : String) (t : Rat) (values : List (Cell Rat)) : Res (Cell Nat) :=
  if op = "gt" then .ok (maSum (values.map fun c => (decide (c.1 > t), c.2)))
  else if op = "lt" then .ok (maSum (values.map fun c => (decide (c.1 < t), c.2)))
  else if op = "gte" then .ok (maSum (values.map fun c => (decide (c.1 ≥ t), c.2)))
  else if op = "lte" then .ok (maSum (values.map fun c => (decide (c.1 ≤ t), c.2)))
  else .error .notImplemented

/-- `Between.calculate` (thresholds.py:14-24). -/
def between (lower upper : Rat) (values : List (Cell Rat)) : Res (Cell Nat) :=
  if lower ≤ upper then .ok (maSum (values.map fun c => (decide (c.1 ≥ lower) && decide (c.1 ≤ upper), c.2)))
  else .error .assertionError

end Ocgis.Series
