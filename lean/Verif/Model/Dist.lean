import Verif.Model.Dimension
/-!
# `OcgDist.update_dimension_bounds` (vmachine/mpi.py:294-354)
-/
namespace Ocgis.Mpi

/-- Lines 317-324: the last distributed dimension, in dictionary order, whose length is the maximum.
The group's dictionary of dimensions is a list of dimensions with distinct names. -/
def chooseDistributed (dims : List Dim) : Option Dim :=
  let ds := dims.filter (·.dist)
  let maxLen := ds.foldl (fun (m : Int) d => max m d.len) 0
  ds.foldl (fun acc d => if d.len = maxLen then some d else acc) none

/-- Lines 331-337: the number of ranks that will receive elements. -/
def effectiveSize (size minElements len : Nat) : Nat :=
  let theSize := size
  let theSize := if len < theSize then len else theSize
  let minSize := len / minElements
  if size > 1 ∧ minSize < theSize then minSize else theSize

/-- Lines 339-352 for the distributed dimension on one rank. -/
def updateDistributed (size minElements rank : Nat) (d : Dim) : Res Dim := do
  let n := d.len.toNat
  let d := { d with boundsGlobal? := some (0, d.len) }
  match ← getRankBounds n (effectiveSize size minElements n) rank with
  | some (a, b) => do
    let src ← Dim.sliceSourceIndex (.slice ⟨some (a : Int), some (b : Int)⟩) d.srcIdx
    let d ← d.setSize ((b : Int) - a) src
    .ok { d with boundsLocal? := some ((a : Int), (b : Int)) }
  | none => d.convertToEmpty

/-- One rank and one group of the loop in `update_dimension_bounds` (vmachine/mpi.py:310-352). -/
def updateGroup (size minElements rank : Nat) (dims : List Dim) : Res (List Dim) :=
  match chooseDistributed dims with
  | none => .ok dims
  | some c =>
    dims.mapM fun d =>
      if d.name = c.name then updateDistributed size minElements rank d
      else .ok { d with dist := false }

/-- `OcgDist`: whether the dimensions were updated, and the groups (each a list of dimensions) of every
rank (vmachine/mpi.py:142-154). -/
structure OcgDist where
  size : Nat
  hasUpdated : Bool
  mapping : List (List (List Dim))
  deriving DecidableEq, Repr

/-- `update_dimension_bounds(rank='all', min_elements)` (vmachine/mpi.py:294-354). -/
def OcgDist.updateDimensionBounds (o : OcgDist) (minElements : Nat) : Res OcgDist :=
  if o.hasUpdated then .error .valueError
  else if minElements < 1 then .error .valueError
  else do
    let m ← (List.range o.size).mapM fun rank =>
      match o.mapping[rank]? with
      | none => .error .keyError
      | some groups => groups.mapM (updateGroup o.size minElements rank)
    .ok { o with mapping := m, hasUpdated := true }

/-- `get_empty_ranks(group)` (vmachine/mpi.py:258-268) over the given group's dimensions per rank. -/
def emptyRanks (perRank : List (List Dim)) : List Nat :=
  (List.range perRank.length).filter fun r => ((perRank[r]?.getD []).any (·.isEmpty))

end Ocgis.Mpi
