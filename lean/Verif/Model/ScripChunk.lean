import Verif.Py
/-!
# Chunks of a SCRIP grid

Models `DriverNetcdfSCRIP._gc_iter_dst_grid_slices_` (driver/nc_scrip.py:98-125) on one process, and how the grid chunker calls it
(spatial/grid_chunker.py:461-472, spatial/base.py:616-617).  Latitudes are rational.
Simplified: a grid without cells is not treated apart.
-/
namespace Ocgis.ScripChunk

/-- A value into its place, once. -/
def insertOnce (x : Rat) : List Rat → List Rat
  | [] => [x]
  | y :: l => if x < y then x :: y :: l else if x = y then y :: l else y :: insertOnce x l

/-- The unique latitudes, sorted (driver/nc_scrip.py:110-115). -/
def uniqueSorted : List Rat → List Rat
  | [] => []
  | x :: l => insertOnce x (uniqueSorted l)

/-- The mask of one chunk (driver/nc_scrip.py:122-125): `logical_or` over the latitudes of the chunk. -/
def selectOf (lats chunk : List Rat) : List Bool := lats.map fun c => chunk.any fun v => c = v

/-- `_gc_iter_dst_grid_slices_(grid_chunker)` (driver/nc_scrip.py:99-125) with `nchunks_dst[0]` chunks; none is refused by `array_split`. -/
def slices (lats : List Rat) (n : Nat) : Res (List (List Bool)) :=
  if n = 0 then .error .valueError else .ok ((arraySplit (uniqueSorted lats) n).map (selectOf lats))

/-- The parameters the driver's function has (driver/nc_scrip.py:99). -/
def driverParameters : List String := ["grid_chunker"]

/-- Python's call of a function with keywords: one that is not a parameter is refused before the body runs. -/
def callWith {α} (parameters keywords : List String) (body : Res α) : Res α :=
  if keywords.all parameters.contains then body else .error .typeError

/-- `GridChunker.iter_dst_grid_slices(yield_idx)` (spatial/grid_chunker.py:472, spatial/base.py:616-617): the keyword is handed on always, also
when it is `None`. -/
def slicesByChunker (lats : List Rat) (n : Nat) (_yieldIdx : Option Nat) : Res (List (List Bool)) :=
  callWith driverParameters ["yield_idx"] (slices lats n)

end Ocgis.ScripChunk
