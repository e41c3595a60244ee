import Verif.Model.Dist
/-!
# `variable_scatter` and `variable_gather` (vmachine/mpi.py:756-925)

A variable is modelled by its dimension that is distributed and the list of its hyperslabs along that
dimension: `values[i]` is everything (values and mask, over all other dimensions) the variable stores at
index `i`.  Undistributed dimensions are sliced by `slice(0, len)` on every rank, so they stay whole.
-/
namespace Ocgis.Mpi

structure Var (α : Type) where
  dim : Dim
  values : List α
  deriving DecidableEq, Repr

/-- The part of `variable_scatter` that selects what goes to one rank (vmachine/mpi.py:885-913): nothing for an
empty rank, otherwise the slice by the local bounds of the destination dimension, which becomes the
dimension of the scattered variable (line 923). -/
def scatterTo {α : Type} (v : Var α) (dest : Dim) : Option (Var α) :=
  if dest.isEmpty then none
  else some ⟨dest, (PySlice.mk (some dest.boundsLocal.1) (some dest.boundsLocal.2)).get v.values⟩

/-- `variable_scatter` over the destination dimensions of all ranks.  A variable that is already
distributed is rejected (lines 835-836); on one rank the variable itself is scattered (line 915) and takes
the destination dimension (line 923). -/
def scatter {α : Type} (v : Var α) (dests : List Dim) : Res (List (Option (Var α))) :=
  if v.dim.dist then .error .valueError
  else if dests.length > 1 then .ok (dests.map (scatterTo v))
  else .ok (dests.map fun d => some ⟨d, v.values⟩)

/-- One step of the loop placing array source indices (vmachine/mpi.py:799-800). -/
def placeSrcIdx (fill : List Int) (part : Dim) : Res (List Int) :=
  match part.srcIdx with
  | some (.fancy xs) => assignSlice fill part.boundsLocal.1.toNat part.boundsLocal.2.toNat xs
  | some (.bounds a b) => assignSlice fill part.boundsLocal.1.toNat part.boundsLocal.2.toNat [a, b]
  | none => .error .typeError

/-- One row of the array of bounds source indices (vmachine/mpi.py:802-805). -/
def boundsSrcIdx (part : Dim) : Res (List Int) :=
  match part.srcIdx with
  | some (.bounds a b) => .ok [a, b]
  | some (.fancy _) => .error .valueError
  | none => .error .typeError

/-- The new source index of a gathered dimension (vmachine/mpi.py:793-808). -/
def gatherSrcIdx (parts : List Dim) (newSize : Int) : Res (Option SrcIdx) :=
  match parts.getLast? with
  | none => .ok none
  | some last =>
    match last.srcIdx with
    | none => .ok none
    | some (.fancy _) => do
      let fill ← parts.foldlM placeSrcIdx (List.replicate newSize.toNat 0)
      .ok (some (.fancy fill))
    | some (.bounds _ _) => do
      let bs ← parts.mapM boundsSrcIdx
      let mn ← listMin bs.flatten
      let mx ← listMax bs.flatten
      .ok (some (.bounds mn mx))

/-- `variable_gather` on the root rank (vmachine/mpi.py:756-825).  The uninitialised new array is filled with
`none`. -/
def gather {α : Type} (parts : List (Var α)) : Res (Dim × List (Option α)) :=
  if parts.any (·.dim.isEmpty) then .error .valueError
  else match parts with
  | [] => .error .valueError
  | [v] => .ok ({ v.dim with dist := false }, v.values.map some)
  | v :: _ => do
    let dims := parts.map (·.dim)
    let newSize := (dims.map (·.len)).foldl (· + ·) 0
    let src ← gatherSrcIdx dims newSize
    let newDim ← v.dim.setSize newSize src
    let newDim := { newDim with dist := false }
    let fill ← parts.foldlM
      (fun (fill : List (Option α)) part =>
        assignSlice fill part.dim.boundsLocal.1.toNat part.dim.boundsLocal.2.toNat (part.values.map some))
      (List.replicate newSize.toNat none)
    .ok (newDim, fill)

end Ocgis.Mpi
