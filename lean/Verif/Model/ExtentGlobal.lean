import Verif.Py
/-!
# The extent of a grid spread over processes

Models `extent_global` (spatial/base.py:132-141,728-747) with the extents of grids and of unstructured coordinates on each process
(spatial/grid.py:854-878, spatial/geomc.py:679-682).  Values are rational numbers.  With bounds, the coordinates are the corners.
-/
namespace Ocgis.ExtentGlobal

/-- A coordinate value and whether it is masked. -/
structure Cell where
  value : Rat
  masked : Bool
  deriving DecidableEq, Repr

/-- The part of a grid on one process. -/
structure Part where
  xs : List Cell
  ys : List Cell
  deriving DecidableEq, Repr

/-- Minimum, minimum, maximum, maximum; `none` is not-a-number. -/
structure Extent where
  minx : Option Rat
  miny : Option Rat
  maxx : Option Rat
  maxy : Option Rat
  deriving DecidableEq, Repr

/-- `array.min()` of numbers; masked arrays without any value give the masked constant, which is not-a-number in an array of floats. -/
def minOf : List Rat → Option Rat
  | [] => none
  | a :: as => some (as.foldl min a)

/-- `array.max()`. -/
def maxOf : List Rat → Option Rat
  | [] => none
  | a :: as => some (as.foldl max a)

/-- The values that count: for grids with coordinates in two dimensions those that are not masked (`mv`), else all of them (`v`)
(spatial/grid.py:858-871). -/
def counted (vectorized : Bool) (cells : List Cell) : List Rat :=
  if vectorized then cells.map (·.value) else (cells.filter fun c => ! c.masked).map (·.value)

/-- `extent` on one process (spatial/grid.py:873-878). -/
def extentOf (vectorized : Bool) (p : Part) : Extent :=
  { minx := minOf (counted vectorized p.xs), miny := minOf (counted vectorized p.ys)
    maxx := maxOf (counted vectorized p.xs), maxy := maxOf (counted vectorized p.ys) }

/-- `np.min` of an array that may have not-a-numbers. -/
def npMin (l : List (Option Rat)) : Option Rat := if l.contains none then none else minOf (l.filterMap id)

/-- `np.max` of an array that may have not-a-numbers. -/
def npMax (l : List (Option Rat)) : Option Rat := if l.contains none then none else maxOf (l.filterMap id)

/-- What the root makes of the extents (spatial/base.py:734-742). -/
def reduce (es : List Extent) : Extent :=
  { minx := npMin (es.map (·.minx)), miny := npMin (es.map (·.miny)), maxx := npMax (es.map (·.maxx)), maxy := npMax (es.map (·.maxy)) }

/-- How the call ends on a process; `waits` is that the others are waited for without end. -/
inductive Outcome
  | returns (e : Extent)
  | raises (e : PyErr)
  | waits
  deriving DecidableEq, Repr

/-- `extent_global` on all processes (spatial/base.py:728-747); an empty part is `none`. Where it is empty an exception is raised before the
extents are gathered. -/
def extentGlobal (vectorized : Bool) (parts : List (Option Part)) : List Outcome :=
  if parts.contains none then
    parts.map fun
      | none => .raises .emptyObject
      | some _ => .waits
  else
    let es := (parts.filterMap id).map (extentOf vectorized)
    parts.map fun _ => .returns (reduce es)

end Ocgis.ExtentGlobal
