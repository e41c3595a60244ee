import Verif.Py
import Verif.Model.Masks
import Verif.Model.Collection

/-! Record iteration: variable/iterator.py:10-243 and variable/base.py:1314-1363, 1636-1649 (`get_iter`). -/

namespace Ocgis.RecordIter
open Ocgis Ocgis.Collection Ocgis.Masks

/-- Cells of a record: data values (`None` for clobbered ones) and the names put in the `VARIABLE` column. -/
inductive Cell (α : Type) where
  | data (x : Option α)
  | text (s : String)
deriving DecidableEq

/-- A variable as the iterator sees it: named dimensions with sizes, a value at every multi-index, an optional mask,
an optional `repeat_record`, and optional one-dimensional bounds, already in lower/upper order
(`get_bounds_order_1d`). -/
structure Var (α : Type) where
  name : String
  dims : List String
  shape : List Nat
  value : List Nat → α
  mask : Option (List Nat → Bool) := none
  repeatRecord : Option (List (String × α)) := none
  bounds : Option (Nat → α × α) := none

/-- One `Iterator` object without its followers. -/
structure It (α : Type) where
  var : Var α
  allowMasked : Bool := true
  primaryMask : String
  remap : Option (List Nat) := none
  shape : List Nat
  clobber : Bool := true
  repeaters : Option (List (String × α)) := none
  formatter : Option (String → Option α → Bool → List (String × Cell α)) := none

/-- An `Iterator` with its (already flattened) follower list. -/
inductive Tree (α : Type) where
  | mk (it : It α) (followers : List (Tree α))

def Tree.it {α : Type} : Tree α → It α
  | .mk i _ => i

/-- A follower argument: a variable or an iterator. -/
inductive Arg (α : Type) where
  | var (v : Var α)
  | iter (t : Tree α)

/-- iterator.py:24-29: the repeaters of the iterator.  The in-place `+=` is modelled in `getIter`. -/
def joinRepeaters {α : Type} (given own : Option (List (String × α))) : Option (List (String × α)) :=
  match own, given with
  | none, g => g
  | some o, none => some o
  | some o, some g => some (g ++ o)

/-- iterator.py:13-68, `Iterator.__init__` up to the followers; `value` and `mask` default to those of the variable. -/
def mkIt {α : Type} (v : Var α) (allowMasked : Bool) (primaryMask : Option String)
    (repeaters : Option (List (String × α))) (clobber : Bool) : It α :=
  { var := v, allowMasked := allowMasked, primaryMask := primaryMask.getD v.name, shape := v.shape,
    repeaters := joinRepeaters repeaters v.repeatRecord, clobber := clobber }

mutual
/-- iterator.py:219-226, `get_followers`: every iterator is followed by what its own followers contribute. -/
def flattenTree {α : Type} : Tree α → List (Arg α)
  | .mk i fs => .iter (.mk i fs) :: flattenTrees fs
def flattenTrees {α : Type} : List (Tree α) → List (Arg α)
  | [] => []
  | t :: ts => flattenTree t ++ flattenTrees ts
end

/-- iterator.py:219-226 on the follower arguments. -/
def flattenArgs {α : Type} (args : List (Arg α)) : List (Arg α) :=
  args.flatMap fun
    | .var v => [.var v]
    | .iter t => flattenTree t

/-- iterator.py:74-78: a variable gets a plain iterator with the lead's masking options. -/
def argTree {α : Type} (lead : It α) : Arg α → Tree α
  | .var v => .mk (mkIt v lead.allowMasked (some lead.primaryMask) none true) []
  | .iter t => t

/-- iterator.py:80-95: a follower must use a subset of the lead's dimensions; when its dimensions are not the lead's,
it iterates the lead's shape and picks its own indices out of the lead's.  The follower object itself changes. -/
def attach {α : Type} (lead : It α) (t : Tree α) : Res (Tree α) :=
  match t with
  | .mk f fs =>
    if f.var.dims.all lead.var.dims.contains then
      .ok (.mk (if f.var.dims = lead.var.dims then f
        else { f with remap := some (f.var.dims.map lead.var.dims.idxOf), shape := lead.shape }) fs)
    else .error .valueError

/-- iterator.py:13-102: construct an iterator with followers.  `followers = none` is no followers at all. -/
def mkIterator {α : Type} (lead : It α) (followers : Option (List (Arg α))) (melted : Option (List String)) :
    Res (Tree α) :=
  match followers with
  | none => if melted.isSome then .error .valueError else .ok (.mk lead [])
  | some args => match (flattenArgs args).mapM fun a => attach lead (argTree lead a) with
    | .error e => .error e
    | .ok fs => .ok (.mk lead fs)

/-- The index of an array is in range. -/
def inShape (shape idx : List Nat) : Bool :=
  decide (idx.length = shape.length) && (shape.zip idx).all fun p => decide (p.2 < p.1)

/-- What one iterator contributes to a record: pairs, or the flag that the record must be skipped. -/
inductive Piece (α : Type) where
  | skip
  | pairs (ps : List (String × Cell α))

/-- iterator.py:143-144: the index into the variable. -/
def pick (remap : Option (List Nat)) (idx : List Nat) : List Nat :=
  match remap with
  | none => idx
  | some r => r.map fun i => idx.getD i 0

/-- iterator.py:202-209: the mask at an index. -/
def maskedAt {α : Type} (v : Var α) (idx : List Nat) : Bool := (v.mask.map fun m => m idx).getD false

/-- iterator.py:152-153: masked values become `None`. -/
def shown {α : Type} (clobber : Bool) (v : Var α) (idx : List Nat) : Option α :=
  if maskedAt v idx && clobber then none else some (v.value idx)

/-- iterator.py:158-161: the name and value, or what the formatter makes of them. -/
def formatted {α : Type} (f : It α) (idx : List Nat) : List (String × Cell α) :=
  match f.formatter with
  | none => [(f.var.name, .data (shown f.clobber f.var idx))]
  | some g => g f.var.name (shown f.clobber f.var idx) (maskedAt f.var idx)

/-- iterator.py:155-163: skip, or the repeaters followed by the values. -/
def piece {α : Type} (f : It α) (idx : List Nat) : Piece α :=
  if !f.allowMasked && maskedAt f.var idx && decide (f.primaryMask = f.var.name) then .skip
  else .pairs (((f.repeaters.getD []).map fun r => (r.1, Cell.data (some r.2))) ++ formatted f idx)

/-- iterator.py:141-165: the pieces of one iterator, over its shape.  Simplification: an index outside the variable
fails the whole iteration (the code raises when it gets there). -/
def pieces {α : Type} (f : It α) : Res (List (Piece α)) :=
  (allIdx f.shape).mapM fun idx =>
    if inShape f.var.shape (pick f.remap idx) then .ok (piece f (pick f.remap idx)) else .error .indexError

/-- `zip(*lists)`: as long as the shortest. -/
def zipAll {β : Type} : List (List β) → List (List β)
  | [] => []
  | [l] => l.map fun x => [x]
  | l :: ls => List.zipWith (fun x xs => x :: xs) l (zipAll ls)

/-- A record is a dictionary in order of insertion. -/
abbrev Row (α : Type) := Dict (Cell α)

/-- iterator.py:174-178: collect the pieces; iterating the skip flag (an integer) is a `TypeError`. -/
def collect {α : Type} : List (Piece α) → Row α → Res (Row α)
  | [], r => .ok r
  | .skip :: _, _ => .error .typeError
  | .pairs ps :: rest, r => collect rest (ps.foldl (fun r p => Dict.set r p.1 p.2) r)

/-- A piece is the skip flag. -/
def isSkip {α : Type} : Piece α → Bool
  | .skip => true
  | .pairs _ => false

/-- iterator.py:170-178: drop a record when the lead disallows masked records and some piece is the skip flag. -/
def record {α : Type} (lead : It α) (ps : List (Piece α)) : Res (Option (Row α)) :=
  if !lead.allowMasked && ps.any isSkip then .ok none
  else match collect ps [] with
    | .error e => .error e
    | .ok r => .ok (some r)

/-- iterator.py:181-183: take the melted columns out of the record. -/
def popAll {α : Type} : List String → Row α → Res (List (Cell α) × Row α)
  | [], r => .ok ([], r)
  | m :: ms, r => match Dict.get? r m with
    | none => .error .keyError
    | some x => match popAll ms (Dict.erase r m) with
      | .error e => .error e
      | .ok (xs, r') => .ok (x :: xs, r')

/-- iterator.py:184-191: one row per melted variable; the columns set for one variable remain for the next. -/
def meltRows {α : Type} (reps : String → List (String × α)) : List (String × Cell α) → Row α → List (Row α)
  | [], _ => []
  | (m, x) :: rest, r =>
    let r' := Dict.set (Dict.set ((reps m).foldl (fun r p => Dict.set r p.1 (Cell.data (some p.2))) r) "VARIABLE" (.text m))
      "VALUE" x
    r' :: meltRows reps rest r'

/-- iterator.py:179-193: what one record yields. -/
def emit {α : Type} (hasFollowers : Bool) (melted : Option (List String)) (reps : String → List (String × α))
    (r : Row α) : Res (List (Row α)) :=
  match melted with
  | none => .ok [r]
  | some ms => if hasFollowers then
      match popAll ms r with
      | .error e => .error e
      | .ok (xs, r') => .ok (meltRows reps (ms.zip xs) r')
    else .ok []

/-- iterator.py:104-196, `__iter__` of a lead iterator, with the melted names and their `repeat_record`s. -/
def rows {α : Type} (t : Tree α) (melted : Option (List String)) (reps : String → List (String × α)) :
    Res (List (Row α)) :=
  match t with
  | .mk lead fs => match (lead :: fs.map Tree.it).mapM pieces with
    | .error e => .error e
    | .ok pss => match (zipAll pss).mapM (record lead) with
      | .error e => .error e
      | .ok rs => match (rs.filterMap id).mapM (emit (!fs.isEmpty) melted reps) with
        | .error e => .error e
        | .ok out => .ok out.flatten

/-- base.py:1337-1345: the followers for the bounds of a one-dimensional variable. -/
def boundsFollowers {α : Type} (v : Var α) (b : Nat → α × α) : List (Arg α) :=
  [.var { name := "lb_" ++ v.name, dims := v.dims, shape := v.shape, value := fun i => (b (i.headD 0)).1 },
   .var { name := "ub_" ++ v.name, dims := v.dims, shape := v.shape, value := fun i => (b (i.headD 0)).2 }]

/-- base.py:1330-1346: followers of `get_iter`. -/
def getIterFollowers {α : Type} (addBounds : Bool) (v : Var α) : Res (Option (List (Arg α))) :=
  match v.bounds with
  | none => .ok none
  | some b => if addBounds then
      if 1 < v.dims.length then .error .valueError else .ok (some (boundsFollowers v b))
    else .ok none

/-- base.py:1347-1351 with iterator.py:24-29: the repeaters reaching the iterator, and what the variable's own
`repeat_record` list holds afterwards: without given repeaters the very list of the variable is handed over and
extended in place by itself. -/
def getIterRepeaters {α : Type} (given own : Option (List (String × α))) :
    Option (List (String × α)) × Option (List (String × α)) :=
  match own, given with
  | none, g => (g, none)
  | some o, none => (some (o ++ o), some (o ++ o))
  | some o, some g => (some (g ++ o ++ o), some o)

/-- base.py:1314-1363, `get_iter` without a driver: the iterator and the variable afterwards.  A variable with bounds
whose bounds were not asked for has no followers to iterate (1359-1361). -/
def getIter {α : Type} (addBounds : Bool) (repeaters : Option (List (String × α))) (v : Var α) :
    Res (Tree α) × Var α :=
  match getIterFollowers addBounds v with
  | .error e => (.error e, v)
  | .ok fs =>
    let rr := getIterRepeaters repeaters v.repeatRecord
    let v' := { v with repeatRecord := rr.2 }
    match mkIterator { mkIt v' true none none true with repeaters := rr.1 } fs none with
    | .error e => (.error e, v')
    | .ok t => (if v.bounds.isSome && fs.isNone then .error .typeError else .ok t, v')

end Ocgis.RecordIter
