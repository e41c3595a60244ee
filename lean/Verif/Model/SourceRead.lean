import Verif.Model.DictSlice
/-!
# Variables whose values are read from a file when they are first needed

`SourcedVariable` (variable/base.py:1600-1698) and the netCDF driver's reading (driver/nc.py:620-686).
-/
namespace Ocgis.SourceRead
open Ocgis Ocgis.DictSlice
open Ocgis.Array (Arr)

/-- What is read of the file along a dimension (driver/nc.py:661-676): its source index, or its local bounds if it has none. -/
def readIndex (d : Dim) : RawIndex :=
  match d.srcIdx with
  | none => .slice ⟨some d.boundsLocal.1, some d.boundsLocal.2⟩
  | some (.fancy xs) => .ints xs
  | some (.bounds a b) => .slice ⟨some a, some b⟩

/-- The indices of all dimensions, normalised (driver/nc.py:677).  A list of one index is formatted like the index itself. -/
def readIndices : List Dim → Res (List Index)
  | [] => .ok []
  | d :: ds =>
    match formatSlice (readIndex d) with
    | .error e => .error e
    | .ok i =>
      match readIndices ds with
      | .error e => .error e
      | .ok is => .ok (i :: is)

/-- `get_variable_value(variable, dimensions)` (driver/nc.py:659-685).  A netCDF variable is indexed axis by axis, also with
several index arrays.  An `IndexError` leads to `super(MFTime, variable)`, a `TypeError` unless several files are open. -/
def readValue {α : Type} (file : Arr α) (dims : List Dim) : Res (Arr α) :=
  match readIndices dims with
  | .error e => .error e
  | .ok [] => .ok file
  | .ok is =>
    match allPositions is file.shape with
    | .error _ => .error .typeError
    | .ok pos => .ok ⟨pos.map List.length, fun idx => file.elem (through pos idx)⟩

/-- A variable with a source: its dimensions, its value if there is one, whether the value has been read, and whether reading
is forbidden.  Masks set before reading and the conversion of units are left out; emptiness and groups too. -/
structure Sourced (α : Type) where
  dims : List Dim
  value : Option (Arr α) := none
  loaded : Bool := false
  guarded : Bool := false

/-- The value allocated for a variable that has none (variable/base.py:746-759). -/
def allocated {α : Type} (fill : α) (dims : List Dim) : Arr α := ⟨dims.map fun d => d.len.toNat, fun _ => fill⟩

/-- `get_value()` (variable/base.py:1305-1312, 1689-1698). -/
def force {α : Type} (fill : α) (file : Arr α) (v : Sourced α) : Res (Sourced α × Arr α) :=
  match v.value with
  | some a => .ok (v, a)
  | none =>
    if v.loaded then .ok ({ v with value := some (allocated fill v.dims) }, allocated fill v.dims)
    else if v.guarded then .error .payloadProtected
    else
      match readValue file v.dims with
      | .error e => .error e
      | .ok a => .ok ({ v with value := some a, loaded := true }, a)

/-- `load()` (variable/base.py:1675-1687): nothing if the value has been read.  A value that was set is left alone. -/
def load {α : Type} (fill : α) (file : Arr α) (v : Sourced α) : Res (Sourced α) :=
  if v.loaded then .ok v
  else
    match force fill file v with
    | .error e => .error e
    | .ok (v, _) => .ok v

/-- The sliced dimensions (variable/base.py:1775-1776). -/
def sliceDimensions : List RawIndex → List Dim → Res (List Dim)
  | i :: is, d :: ds =>
    match d.getitem i with
    | .error e => .error e
    | .ok d' =>
      match sliceDimensions is ds with
      | .error e => .error e
      | .ok ds' => .ok (d' :: ds')
  | [], [] => .ok []
  | _, _ => .error .indexError

/-- The normalised indices. -/
def formatAll : List RawIndex → Res (List Index)
  | [] => .ok []
  | i :: is =>
    match formatSlice i with
    | .error e => .error e
    | .ok f =>
      match formatAll is with
      | .error e => .error e
      | .ok fs => .ok (f :: fs)

/-- `variable[idx]` (variable/base.py:52-67, 176-186, 322-334, 1767-1793): the dimensions are sliced, and the value if there is one; nothing
is read. -/
def slice {α : Type} (idx : List RawIndex) (v : Sourced α) : Res (Sourced α) :=
  match formatAll idx with
  | .error e => .error e
  | .ok fs =>
    match sliceDimensions idx v.dims with
    | .error e => .error e
    | .ok ds =>
      match v.value with
      | none => .ok { v with dims := ds }
      | some a =>
        match sliceArr fs a.shape a.elem with
        | .error e => .error e
        | .ok a' => .ok { v with dims := ds, value := some a' }

/-- What a caller may do with a variable. -/
inductive Act (α : Type) where
  | slice (idx : List RawIndex)
  | get
  | load
  | set (a : Arr α)
  | remove

/-- A history: the values that the `get`s returned and the variable in the end.  `set` is `set_value` without a mask
(variable/base.py:765-823), `remove` is `remove_value` (variable/base.py:761-763). -/
def run {α : Type} (fill : α) (file : Arr α) : Sourced α → List (Act α) → Res (List (Arr α) × Sourced α)
  | v, [] => .ok ([], v)
  | v, .slice idx :: rest =>
    match slice idx v with
    | .error e => .error e
    | .ok v => run fill file v rest
  | v, .get :: rest =>
    match force fill file v with
    | .error e => .error e
    | .ok (v, a) =>
      match run fill file v rest with
      | .error e => .error e
      | .ok (out, v) => .ok (a :: out, v)
  | v, .load :: rest =>
    match load fill file v with
    | .error e => .error e
    | .ok v => run fill file v rest
  | v, .set a :: rest => run fill file { v with value := some a } rest
  | v, .remove :: rest => run fill file { v with value := none } rest

end Ocgis.SourceRead
