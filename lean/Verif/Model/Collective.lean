import Verif.Model.Comm
import Verif.Model.Dimension
/-!
# Collective functions as message-passing programs
-/
namespace Ocgis.Comm

/-- The only element of a one-element message (`data[0]`). -/
def Msg.scalar : Msg → Res Int
  | v :: _ => .ok v
  | [] => .error .indexError

/-- Continue, or raise. -/
def Proc.ofRes {R α : Type} (x : Res α) (k : α → Proc R) : Proc R :=
  match x with
  | .ok a => k a
  | .error e => .raise e

/-- Message tags (constants.py, class MPITag); only their being different matters. -/
def tagArange : Nat := 1
def tagDistDim : Nat := 2
def tagUgid : Nat := 0
def tagOverlap : Nat := 3
def tagSelectSize : Nat := 4

/-- `arange_from_dimension(dim, start, dist=True)`, lines 124-142: the loop over `vm.ranks` on rank `me`. -/
def arangeLoop (size me localSize : Nat) : List Nat → Int → Proc (List Int)
  | [], start => .coll [] fun _ => .ret (intRange start (start + localSize))
  | rank :: rest, start =>
    let dest := rank + 1
    if dest = size then .coll [] fun _ => .ret (intRange start (start + localSize))
    else if me = rank then .send dest tagArange [start + localSize] (arangeLoop size me localSize rest start)
    else if me = dest then
      .recv rank tagArange fun v => Proc.ofRes (Msg.scalar v) fun start => arangeLoop size me localSize rest start
    else arangeLoop size me localSize rest start

/-- `arange_from_dimension` on rank `me` (util/helpers.py:106-147). -/
def arange (size me localSize : Nat) (start : Int) : Proc (List Int) :=
  arangeLoop size me localSize (List.range size) start

/-- The loop on the root in `create_ugid_global` (variable/base.py:1097-1102): `start` grows by the sizes, and every
other rank is sent its start. -/
def ugidRootLoop (sizes : List Int) (k : Int → Proc (List Int)) : List Nat → Int → Int → Proc (List Int)
  | [], _, rankStart => k rankStart
  | n :: rest, start, rankStart =>
    let next := start + sizes.getD n 0
    if n = 0 then ugidRootLoop sizes k rest next start
    else .send n tagUgid [start] (ugidRootLoop sizes k rest next rankStart)

/-- `create_ugid_global(name, start)` on rank `me`: the values of the identifier variable, flattened
(variable/base.py:1066-1106). -/
def ugidGlobal (size me localSize : Nat) (start : Int) : Proc (List Int) :=
  if localSize = 0 then .raise .emptyObject
  else
    let finish := fun rankStart : Int => Proc.ret (intRange rankStart (rankStart + localSize))
    .coll [(localSize : Int)] fun gathered =>
      if me = 0 then ugidRootLoop (gathered.map (·.headD 0)) finish (List.range size) start 0
      else .recv 0 tagUgid fun v => Proc.ofRes (Msg.scalar v) finish

/-- Lines 483-492 of `create_distributed_dimension`. -/
def distDimFinish (name : String) (localSize : Nat) (sizeGlobal startIdx : Int) : Proc Dim :=
  let d : Dim := ⟨name, some localSize, some localSize, true, decide (localSize = 0), none, none, none⟩
  .ret { d with boundsGlobal? := some (0, sizeGlobal), boundsLocal? := some (startIdx, startIdx + localSize) }

/-- The loop of `create_distributed_dimension` (variable/dimension.py:470-481). -/
def distDimLoop (name : String) (size me localSize : Nat) (sizeGlobal : Int) : List Nat → Int → Proc Dim
  | [], startIdx => distDimFinish name localSize sizeGlobal startIdx
  | rank :: rest, startIdx =>
    let dest := rank + 1
    if dest = size then distDimFinish name localSize sizeGlobal startIdx
    else if me = rank then
      .send dest tagDistDim [startIdx + localSize] (distDimLoop name size me localSize sizeGlobal rest startIdx)
    else if me = dest then
      .recv rank tagDistDim fun v => Proc.ofRes (Msg.scalar v) fun s => distDimLoop name size me localSize sizeGlobal rest s
    else distDimLoop name size me localSize sizeGlobal rest startIdx

/-- `create_distributed_dimension(size, name=...)` (variable/dimension.py:452-492).  `reduce` then `bcast` of the global
size are two collective operations.  `start_idx` is unset on non-root ranks until received; 0 stands for unset. -/
def createDistributedDimension (name : String) (size me localSize : Nat) : Proc Dim :=
  .coll [(localSize : Int)] fun sizes =>
    .coll [(sizes.map (·.headD 0)).sum] fun b =>
      distDimLoop name size me localSize ((b.headD []).headD 0) (List.range size) 0

/-- Insertion into a sorted list without duplicates. -/
def insertUnique (x : Int) : List Int → List Int
  | [] => [x]
  | y :: ys => if x < y then x :: y :: ys else if x = y then y :: ys else y :: insertUnique x ys

/-- `np.unique(arr)`: the sorted distinct values. -/
def npUnique (xs : List Int) : List Int := xs.foldr insertUnique []

/-- Lines 1061-1076 of `create_unique_global_array`: does rank `other`'s interval concern the interval `lo..hi`? -/
def intervalsOverlap (lo hi olo ohi : Int) : Bool :=
  (decide (olo ≤ lo ∧ lo ≤ ohi) || decide (olo ≤ hi ∧ hi ≤ ohi)) || decide (lo ≤ olo ∧ hi ≥ ohi)

/-- The bounds gathered from rank `r`. -/
def boundsOf (all : List Msg) (r : Nat) : Int × Int :=
  let m := all.getD r []
  (m.getD 0 0, m.getD 1 0)

/-- `overlaps` on rank `me` (util/helpers.py:1061-1076). -/
def overlaps (all : List Msg) (size me : Nat) : List Nat :=
  (List.range size).filter fun r =>
    r ≠ me && intervalsOverlap (boundsOf all me).1 (boundsOf all me).2 (boundsOf all r).1 (boundsOf all r).2

/-- Lines 1087-1094: send to every higher overlapping rank the size and the values within its bounds. -/
def uniqueSends (all : List Msg) (me : Nat) (u : List Int) (k : Proc (List Int)) : List Nat → Proc (List Int)
  | [] => k
  | o :: os =>
    if me < o then
      let src := u.filter fun x => decide ((boundsOf all o).1 ≤ x) && decide (x ≤ (boundsOf all o).2)
      .send o tagSelectSize [(src.length : Int)] (.send o tagOverlap src (uniqueSends all me u k os))
    else uniqueSends all me u k os

/-- Lines 1097-1113: receive from every lower overlapping rank and drop the values it has.  A message longer than the
announced size is an MPI error (`RuntimeError`). -/
def uniqueRecvs (me : Nat) (k : List Int → Proc (List Int)) : List Nat → List Int → Proc (List Int)
  | [], u => k u
  | o :: os, u =>
    if o < me then
      .recv o tagSelectSize fun sz => Proc.ofRes (Msg.scalar sz) fun size =>
        .recv o tagOverlap fun src =>
          if (src.length : Int) ≠ size then .raise .runtimeError
          else uniqueRecvs me k os (u.filter fun x => !src.contains x)
    else uniqueRecvs me k os u

/-- `create_unique_global_array(arr)` on rank `me` (util/helpers.py:1036-1116). -/
def uniqueGlobal (size me : Nat) (arr : List Int) : Proc (List Int) :=
  let u := npUnique arr
  .coll [] fun _ =>
    match listMin u, listMax u with
    | .ok mn, .ok mx =>
      .coll [mn, mx] fun gathered =>
        .coll [] fun _ =>      -- the bcast of `gathered`: every rank then holds the same list
          .coll [] fun _ =>
            uniqueSends gathered me u
              (if me ≠ 0 then
                uniqueRecvs me (fun u => .coll [] fun _ => .ret u) (overlaps gathered size me) u
              else .coll [] fun _ => .ret u)
              (overlaps gathered size me)
    | _, _ => .raise .valueError

end Ocgis.Comm
