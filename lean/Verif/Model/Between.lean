import Verif.Py
/-!
# Selection between two values (`Variable.get_between`)
-/
namespace Ocgis.Between

/-- `is_contiguous` (variable/base.py:1167-1177): the first two rows of the bounds share a value. -/
def contiguous : List (Rat × Rat) → Bool
  | a :: b :: _ => [a.1, a.2].any fun x => x == b.1 || x == b.2
  | _ => false

/-- The selection on values (variable/base.py:1185-1188). -/
def selectValues (closed : Bool) (lower upper : Rat) (values : List Rat) : List Bool :=
  values.map fun v => if closed then decide (v > lower) && decide (v < upper) else decide (v ≥ lower) && decide (v ≤ upper)

/-- `bounds_min`, `bounds_max` (variable/base.py:1192-1200): the column of the smaller value, by the first row. -/
def columns (bounds : List (Rat × Rat)) : List (Rat × Rat) :=
  match bounds with
  | [] => []
  | b :: _ => if b.1 ≤ b.2 then bounds else bounds.map fun b => (b.2, b.1)

/-- The selection on bounds (variable/base.py:1190-1217). -/
def selectBounds (closed : Bool) (lower upper : Rat) (bounds : List (Rat × Rat)) : List Bool :=
  (columns bounds).map fun b =>
    if closed then
      (decide (b.1 > lower) || decide (b.2 > lower)) && (decide (b.1 < upper) || decide (b.2 < upper))
    else if contiguous bounds then
      (decide (b.1 ≥ lower) || decide (b.2 > lower)) && (decide (b.1 ≤ upper) || decide (b.2 < upper))
    else
      (decide (b.1 ≥ lower) || decide (b.2 ≥ lower)) && (decide (b.1 ≤ upper) || decide (b.2 ≤ upper))

/-- A one-dimensional coordinate variable: values and, possibly, bounds. -/
structure Coord where
  values : List Rat
  bounds : Option (List (Rat × Rat)) := none
  deriving DecidableEq

/-- The elements of a list at the true places. -/
def pick {α : Type _} : List Bool → List α → List α
  | true :: bs, x :: xs => x :: pick bs xs
  | false :: bs, _ :: xs => pick bs xs
  | _, _ => []

/-- Number of runs of true values (`len(np.ma.clump_masked(...))`, variable/base.py:1230). `before` tells if the preceding
value is true. -/
def clumps (before : Bool) : List Bool → Nat
  | [] => 0
  | true :: bs => (if before then 0 else 1) + clumps true bs
  | false :: bs => clumps false bs

/-- The selection (variable/base.py:1179-1217). -/
def selection (c : Coord) (closed useBounds : Bool) (lower upper : Rat) : List Bool :=
  match c.bounds with
  | none => selectValues closed lower upper c.values
  | some b => if useBounds then selectBounds closed lower upper b else selectValues closed lower upper c.values

/-- `var.get_between(lower, upper, return_indices, closed, use_bounds)` (variable/base.py:1150-1237) for a one-dimensional
variable: the sliced variable, and the indices if asked for. A single run is sliced by a `slice`, which has no `shape`: then
asking for the indices fails. The mask of the variable plays no part. -/
def getBetween (c : Coord) (lower upper : Rat) (returnIndices closed : Bool) (useBounds : Bool := true) :
    Res (Coord × Option (List Nat)) :=
  if ¬ lower ≤ upper then .error .assertionError
  else if c.bounds = some [] then .error .indexError
  else
    let select := selection c closed useBounds lower upper
    if ¬ select.any id then .error .emptySubset
    else
      let ret : Coord := { values := pick select c.values, bounds := c.bounds.map (pick select) }
      if returnIndices then
        if clumps false select = 1 then .error .attributeError
        else .ok (ret, some (pick select (List.range select.length)))
      else .ok (ret, none)

end Ocgis.Between
