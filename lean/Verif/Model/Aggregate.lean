import Verif.Model.Broadcast
/-!
# Temporal aggregation
-/
namespace Ocgis.Aggregate
open Ocgis.Array

/-- `STANDARD_DIMENSIONS` (calc/base.py:22-23). -/
def standard : List String := ["realization", "time", "level", "y", "x"]

/-- A value and whether it is masked. -/
abbrev Cell (α : Type _) := α × Bool

/-- A variable: the crosswalked names of its dimensions (calc/base.py:410-425) and its values. -/
structure AVar (α : Type _) where
  names : List String
  arr : Arr (Cell α)

/-- All choices of an index for each extra dimension, the last varying fastest: the `itertools.product` of
calc/base.py:427-439. -/
def extraChoices : List (String × Nat) → List (List (String × Nat))
  | [] => [[]]
  | (n, s) :: rest => (List.range s).flatMap fun i => (extraChoices rest).map ((n, i) :: ·)

/-- Put the indices of the extra dimensions back between the others. -/
def mergeIdx (extra : List (String × Nat)) : List String → List Nat → List Nat
  | [], _ => []
  | n :: ns, idx =>
    if standard.contains n then idx.headD 0 :: mergeIdx extra ns idx.tail
    else (extra.lookup n).getD 0 :: mergeIdx extra ns idx

/-- `arr.__getitem__(slc)` with the extra dimensions fixed (calc/base.py:537-542), as a view: its shape, and where each of its elements is
in the array. -/
def fixExtras (names : List String) (shape : List Nat) (extra : List (String × Nat)) : Arr (List Nat) :=
  ⟨((names.zip shape).filter fun ns => standard.contains ns.1).map (·.2), mergeIdx extra names⟩

/-- The view conformed to the standard dimensions (calc/base.py:547-549). Slicing, swapping axes and inserting axes of length one give
views, so that what is written to the conformed array is written to the array itself. -/
def conform (names : List String) (shape : List Nat) (extra : List (String × Nat)) : Res (Arr (List Nat)) :=
  broadcast (fixExtras names shape extra) (names.filter standard.contains) standard

/-- The positions of a boolean array that are true. -/
def members (group : List Bool) : List Nat := (List.range group.length).filter fun t => group.getD t false

/-- What a calculation returns: an array of the right shape; an array of another shape, masked or not; or an exception. -/
inductive Outcome (β : Type _) where
  | block (g : Nat → Nat → Cell β)
  | wrongShape (masked : Bool)
  | raised (e : PyErr)

/-- The values written for one realization, level and group (calc/base.py:488-503, without spatial aggregation). The `ValueError` of
an assignment of a masked array of the wrong shape is swallowed. -/
def groupWrites {α β : Type _} (f : List (Nat → Nat → Cell α) → Outcome β) (arr : List Nat → Cell α) (carr cfill : Arr (List Nat))
    (groups : List (List Bool)) (ir il it : Nat) : Res (List (List Nat × Cell β)) :=
  let group := groups.getD it []
  if group.length = carr.shape.getD 1 0 then
    match f ((members group).map fun t y x => arr (carr.elem [ir, t, il, y, x])) with
    | .raised e => .error e
    | .wrongShape true => .ok []
    | .wrongShape false => .error .valueError
    | .block g =>
      .ok ((List.range (cfill.shape.getD 3 0)).flatMap fun y => (List.range (cfill.shape.getD 4 0)).map fun x =>
        (cfill.elem [ir, it, il, y, x], g y x))
  else .error .indexError

/-- The three loops over one conformed array (calc/base.py:480-503): realizations, levels, groups. -/
def conformedWrites {α β : Type _} (f : List (Nat → Nat → Cell α) → Outcome β) (arr : List Nat → Cell α) (carr cfill : Arr (List Nat))
    (groups : List (List Bool)) : Res (List (List Nat × Cell β)) := do
  let parts ← ((List.range (carr.shape.getD 0 0)).flatMap fun ir => (List.range (carr.shape.getD 2 0)).flatMap fun il =>
    (List.range groups.length).map fun it => (ir, il, it)).mapM fun p => groupWrites f arr carr cfill groups p.1 p.2.1 p.2.2
  return parts.flatten

/-- The shape of the output: the variable's, with the number of groups for the time (calc/base.py:456-460). -/
def fillShape (names : List String) (shape : List Nat) (ngroups : Nat) : List Nat := shape.set (names.idxOf "time") ngroups

/-- One choice of the extra indices. -/
def choiceWrites {α β : Type _} (f : List (Nat → Nat → Cell α) → Outcome β) (v : AVar α) (groups : List (List Bool))
    (extra : List (String × Nat)) : Res (List (List Nat × Cell β)) := do
  let carr ← conform v.names v.arr.shape extra
  let cfill ← conform v.names (fillShape v.names v.arr.shape groups.length) extra
  conformedWrites f v.arr.elem carr cfill groups

/-- `array[idx] = value` one after the other. -/
def applyWrites {β : Type _} (fill : List Nat → β) : List (List Nat × β) → List Nat → β
  | [] => fill
  | w :: ws => applyWrites (fun idx => if idx = w.1 then w.2 else fill idx) ws

/-- The extra dimensions with their sizes. -/
def extras (names : List String) (shape : List Nat) : List (String × Nat) := (names.zip shape).filter fun ns => !standard.contains ns.1

/-- The computing part of `_get_temporal_agg_fill_` (calc/base.py:444-523): the array of the output, from what the freshly allocated one
holds. A variable without a time dimension is a `ValueError`; an extra dimension of length zero gives the index out of bounds of
`zip_longest` and an `IndexError`. -/
def aggregate {α β : Type _} (f : List (Nat → Nat → Cell α) → Outcome β) (v : AVar α) (groups : List (List Bool))
    (fill : List Nat → Cell β) : Res (Arr (Cell β)) := do
  if ¬ "time" ∈ v.names then throw .valueError
  if (extras v.names v.arr.shape).any fun ns => ns.2 == 0 then throw .indexError
  let parts ← (extraChoices (extras v.names v.arr.shape)).mapM (choiceWrites f v groups)
  return ⟨fillShape v.names v.arr.shape groups.length, applyWrites fill parts.flatten⟩

/-- `get_sample_size` (calc/base.py:275-286): the number of unmasked values, with the mask of the first time step. -/
def countUnmasked {α : Type _} : List (Nat → Nat → Cell α) → Outcome Nat
  | [] => .raised .indexError
  | b :: bs => .block fun y x => ((b :: bs).countP fun v => !(v y x).2, (b y x).2)

/-- The sample size (calc/base.py:505-508, 513-515): its mask is replaced by that of the output. -/
def sampleSize {α β : Type _} (v : AVar α) (groups : List (List Bool)) (fill : List Nat → Cell Nat) (out : Arr (Cell β)) :
    Res (Arr (Cell Nat)) := do
  let ss ← aggregate countUnmasked v groups fill
  return ⟨ss.shape, fun idx => ((ss.elem idx).1, (out.elem idx).2)⟩

end Ocgis.Aggregate
