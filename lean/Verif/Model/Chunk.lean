import Verif.Model.Dimension
/-!
# Chunk slices (`vmachine/mpi.py`)
-/
namespace Ocgis.Mpi

/-- `create_slices(length, size)` (vmachine/mpi.py:395-400).  `np.array_split` with zero sections is a `ValueError`. -/
def createSlices (length size : Nat) : Res (List Index) :=
  if size = 0 then .error .valueError
  else (arraySplit (intRange 0 length) size).mapM fun s => optimalSlice s false

/-- `itertools.product(*xss)`. -/
def product {α : Type _} : List (List α) → List (List α)
  | [] => [[]]
  | xs :: xss => xs.flatMap fun x => (product xss).map fun t => x :: t

/-- The loop of `create_nd_slices` (vmachine/mpi.py:566-567).  `zip` stops at the shorter sequence; a dimension left
without slices is `None`, which `itertools.product` rejects with a `TypeError`. -/
def ndSliceLists : List Nat → List Nat → Res (List (List Index))
  | split :: splits, shp :: shape => do
    let s ← createSlices shp split
    let rest ← ndSliceLists splits shape
    .ok (s :: rest)
  | _, [] => .ok []
  | [], _ :: _ => .error .typeError

/-- `create_nd_slices(splits, shape)` (vmachine/mpi.py:564-569). -/
def createNdSlices (splits shape : List Nat) : Res (List (List Index)) := do
  let ls ← ndSliceLists splits shape
  .ok (product ls)

/-- `get_optimal_splits(size, shape)` (vmachine/mpi.py:603-620).  `evenSplit` is the value of
`int(np.power(size, 1.0 / len(shape)))`, a floating point root. -/
def optimalSplits (evenSplit size : Nat) (shape : List Nat) : List Nat :=
  let nElements := shape.foldl (· * ·) 1
  if size ≥ nElements then shape
  else match shape with
    | [] => []
    | s0 :: rest =>
      if size ≤ s0 then size :: rest.map (fun _ => 1)
      else shape.map fun shp => if evenSplit > shp then shp else evenSplit

end Ocgis.Mpi
