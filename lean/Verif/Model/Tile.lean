import Verif.Py
/-!
# Tiles and tiled computation
-/
namespace Ocgis.Tile

/-- `np.arange(start, stop, step)` for a positive step. -/
def arange (start stop step : Nat) : List Nat := (List.range ((stop - start + step - 1) / step)).map fun k => start + k * step

/-- `idx[-1] = n` if `idx[-1] > n`; an `IndexError` for an empty array (calc/tile.py:8-13). -/
def clipLast (n : Nat) (idx : List Nat) : Res (List Nat) :=
  match idx.getLast? with
  | none => .error .indexError
  | some l => .ok (if l > n then idx.dropLast ++ [n] else idx)

/-- `get_slices(arr)` (calc/tile.py:23-32): the consecutive pairs. -/
def slices (arr : List Nat) : List (Nat × Nat) := arr.zip (arr.drop 1)

/-- The slices along one dimension. A tile dimension of zero is an error (`np.arange` divides by it); negative ones, which give an empty
array and an `IndexError`, are not modelled. -/
def dimSlices (n tdim origin : Nat) : Res (List (Nat × Nat)) := do
  if tdim = 0 then throw .valueError
  let idx ← clipLast n (arange origin (n + tdim) tdim)
  return slices idx

/-- A tile: its number and half-open row and column ranges. -/
structure Tile where
  id : Nat
  row : Nat × Nat
  col : Nat × Nat
  deriving DecidableEq

/-- `get_tile_schema(nrow, ncol, tdim, origin)` (calc/tile.py:6-20). The dictionary, with its keys, in insertion order. -/
def tileSchema (nrow ncol tdim origin : Nat) : Res (List Tile) := do
  let rows ← dimSlices nrow tdim origin
  let cols ← dimSlices ncol tdim origin
  return (rows.flatMap fun r => cols.map fun c => (r, c)).zipIdx.map fun rc => ⟨rc.2, rc.1.1, rc.1.2⟩

/-! ## Tiled computation (util/large_array.py:15-225)

An array is a list of rows of cells. A cell stands for everything at one place: the column of values over time, level and realization. -/

/-- A slice of an array, rows then columns: `arr[..., r0:r1, c0:c1]`. -/
def cut {α : Type _} (g : List (List α)) (r c : Nat × Nat) : List (List α) :=
  ((g.drop r.1).take (r.2 - r.1)).map fun row => (row.drop c.1).take (c.2 - c.1)

/-- Overwrite part of a list. -/
def overwrite {β : Type _} (l : List β) (start : Nat) (part : List β) : List β :=
  l.take start ++ part ++ l.drop (start + part.length)

/-- Overwrite part of each of some rows. -/
def overwriteRows {β : Type _} : List (List β) → Nat → List (List β) → List (List β)
  | [], _, _ => []
  | row :: rows, _, [] => row :: rows
  | row :: rows, c0, part :: parts => overwrite row c0 part :: overwriteRows rows c0 parts

/-- `vref[..., r0:r1, c0:c1] = value` (large_array.py:203-206). A value of another shape is a `ValueError`. -/
def paste {β : Type _} (out : List (List β)) (r c : Nat × Nat) (value : List (List β)) : Res (List (List β)) :=
  if (cut out r c).map List.length = value.map List.length then .ok (out.take r.1 ++ overwriteRows (out.drop r.1) c.1 value)
  else .error .valueError

/-- A computed cell: its value and whether it is masked. -/
abbrev Cell (β : Type _) := β × Bool

/-- `set_variable_spatial_mask` on a computed slice (large_array.py:228-248): the two masks are or-ed. -/
def orMask {β : Type _} (value : List (List (Cell β))) : Option (List (List Bool)) → List (List (Cell β))
  | none => value
  | some m => value.zipWith (fun row mrow => row.zipWith (fun x b => (x.1, b || x.2)) mrow) m

/-- One tile (large_array.py:176-208): cut the shifted slice out of the field, carry out the operations on it, mask it, write it. -/
def computeTile {α β : Type _} (execute : List (List α) → Res (List (List (Cell β)))) (field : List (List α)) (off : Nat × Nat)
    (mask : Option (List (List Bool))) (out : List (List (Cell β))) (t : Tile) : Res (List (List (Cell β))) := do
  let value ← execute (cut field (t.row.1 + off.1, t.row.2 + off.1) (t.col.1 + off.2, t.col.2 + off.2))
  paste out t.row t.col (orMask value (mask.map fun m => cut m t.row t.col))

/-- The loop over the tiles. The file keeps what was written before an exception. -/
def computeTiles {α β : Type _} (execute : List (List α) → Res (List (List (Cell β)))) (field : List (List α)) (off : Nat × Nat)
    (mask : Option (List (List Bool))) : List (List (Cell β)) → List Tile → List (List (Cell β)) × Option PyErr
  | out, [] => (out, none)
  | out, t :: ts =>
    match computeTile execute field off mask out t with
    | .error e => (out, some e)
    | .ok out' => computeTiles execute field off mask out' ts

/-- What `compute` leaves: the file, the environment flag `OPTIMIZE_FOR_CALC`, and the exception. -/
structure Computed (β : Type _) where
  out : List (List (Cell β))
  flag : Bool
  err : Option PyErr

/-- `compute(ops, tile_dimension)`, from the template file `out` on (large_array.py:81-223). The shape is that of the template; the flag
is put back whatever happens. -/
def compute {α β : Type _} (execute : List (List α) → Res (List (List (Cell β)))) (field : List (List α)) (off : Nat × Nat)
    (mask : Option (List (List Bool))) (flag : Bool) (nrow ncol tdim : Nat) (out : List (List (Cell β))) : Computed β :=
  match tileSchema nrow ncol tdim 0 with
  | .error e => ⟨out, flag, some e⟩
  | .ok schema =>
    match computeTiles execute field off mask out schema with
    | (out', e) => ⟨out', flag, e⟩

end Ocgis.Tile
