import Verif.Model.Dimension
import Verif.Model.Broadcast
/-!
# Writing a netCDF file with one or several processes

`DriverNetcdf.write_variable` and `_write_variable_collection_main_` (driver/nc.py:58-226, 648-656, 688-697) and the choice of write
modes (driver/base.py:774-800, 824-830).  Text variables, variables of ragged arrays, groups, units and the asynchronous mode are left
out.  Data types are not modelled: a value is stored as it is.
-/
namespace Ocgis.NcWrite
open Ocgis
open Ocgis.Array (Arr)

/-- Geometry variables are not written (nc.py:648-656), the data of coordinate systems are not (nc.py:142). -/
inductive Kind where
  | plain | geometry | crs
  deriving DecidableEq, Repr

/-- A rank's part of a variable, loaded: its dimensions, its value if allocated, its mask, its fill value, whether `_FillValue` is
among its attributes, and its other attributes. -/
structure Piece (α : Type) where
  name : String
  dims : List Dim
  kind : Kind := .plain
  value : Option (Arr α) := none
  mask : Option (List Nat → Bool) := none
  fill : α
  fillAttr : Bool := false
  attrs : List (String × String) := []

/-- All positions of an array. -/
def indices : List Nat → List (List Nat)
  | [] => [[]]
  | n :: shape => (List.range n).flatMap fun i => (indices shape).map (i :: ·)

/-- `variable.shape`. -/
def Piece.shape {α : Type} (p : Piece α) : List Nat := p.dims.map fun d => d.len.toNat

/-- `has_masked_values` (variable/base.py:577-588). -/
def Piece.hasMasked {α : Type} (p : Piece α) : Bool :=
  match p.mask with
  | none => false
  | some m => (indices p.shape).any m

/-- A variable in a file. -/
structure NcVar (α : Type) where
  dims : List String
  fill : Option α
  data : List Nat → α
  attrs : List (String × String)

/-- A file: its attributes, its dimensions (`none`: unlimited), how far anything has been written along a dimension (the length of an
unlimited one) and its variables. -/
structure NcFile (α : Type) where
  attrs : List (String × String) := []
  dims : List (String × Option Nat) := []
  extent : String → Nat := fun _ => 0
  vars : List (String × NcVar α) := []

inductive Mode where
  | normal | template | fill
  deriving DecidableEq, Repr

/-- The value cells hold that were never written in a variable without a fill value, and the options of the call. -/
structure Cfg (α : Type) where
  dflt : α
  nc3 : Bool := false
  fileOnly : Bool := false
  toFixed : Bool := false

/-- The size of a dimension (nc.py:688-697). -/
def dimSize (mode : Mode) (d : Dim) : Option Nat :=
  match d.size with
  | none => none
  | some n => some (if mode = .template then (d.boundsGlobal.2 - d.boundsGlobal.1).toNat else n.toNat)

/-- The dimensions of a variable with their sizes (nc.py:105-119): if asked for, the first unlimited dimension is replaced by one of the
variable's length. -/
def declared {α : Type} (cfg : Cfg α) (mode : Mode) : List Dim → List (String × Option Nat)
  | [] => []
  | d :: ds =>
    if d.size = none ∧ cfg.toFixed = true then (d.name, some d.len.toNat) :: ds.map fun d => (d.name, dimSize mode d)
    else (d.name, dimSize mode d) :: declared cfg mode ds

/-- `create_dimension_or_pass` (nc.py:688-697). -/
def createDim (dims : List (String × Option Nat)) (d : String × Option Nat) : List (String × Option Nat) :=
  if (dims.map Prod.fst).contains d.1 then dims else dims ++ [d]

/-- The variable's `_FillValue` (nc.py:122-134). -/
def fillValue {α : Type} (cfg : Cfg α) (mode : Mode) (p : Piece α) : Option α :=
  if (decide (p.dims ≠ []) && p.hasMasked && (decide (mode = .template) || !cfg.fileOnly))
      || (cfg.nc3 && p.value.isNone && decide (p.dims ≠ [])) then some p.fill
  else if p.fillAttr then some p.fill
  else none

/-- Is a position in the block at `lo` with the given shape? -/
def inBlock : List Nat → List Nat → List Nat → Bool
  | [], [], [] => true
  | l :: lo, n :: shape, i :: ix => decide (l ≤ i) && decide (i < l + n) && inBlock lo shape ix
  | _, _, _ => false

/-- The first positions of a rank's part (variable/base.py:2451-2457). -/
def Piece.start {α : Type} (p : Piece α) : List Nat := p.dims.map fun d => d.boundsLocal.1.toNat

/-- How many elements `lower:upper` takes of a dimension of a file: those of a dimension of fixed size end with it. -/
def taken (size : Option Nat) (d : Dim) : Nat :=
  match size with
  | none => d.boundsLocal.2.toNat - d.boundsLocal.1.toNat
  | some n => min d.boundsLocal.2.toNat n - min d.boundsLocal.1.toNat n

/-- What a cell of the file receives: a masked element is stored as the variable's fill value, or the default one. -/
def stored {α : Type} (dflt : α) (nv : NcVar α) (p : Piece α) (a : Arr α) (ix : List Nat) : α :=
  match p.mask with
  | none => a.elem ix
  | some m => if m ix then nv.fill.getD dflt else a.elem ix

/-- The variable after a rank's part has been stored. -/
def putBlock {α : Type} (dflt : α) (nv : NcVar α) (p : Piece α) (a : Arr α) : NcVar α :=
  { nv with data := fun ix =>
      if inBlock p.start a.shape ix then stored dflt nv p a (ix.zipWith (· - ·) p.start) else nv.data ix }

/-- How far has been written along a dimension after a rank's part has been stored. -/
def newExtent {α : Type} (names : List String) (p : Piece α) (old : String → Nat) (n : String) : Nat :=
  ((names.zip p.dims).filterMap fun x => if x.1 = n then some x.2.boundsLocal.2.toNat else none).foldl max (old n)

/-- Storing the data (nc.py:142-170).  The assignment to the file's variable needs as many elements as the slices take; that the library
repeats an axis of length one is left out. -/
def writeData {α : Type} (cfg : Cfg α) (p : Piece α) (nv : NcVar α) (f : NcFile α) : Res (NcFile α) :=
  if cfg.fileOnly || decide (p.kind = .crs) then .ok f
  else
    match p.value with
    | none => .ok f
    | some a =>
      if (nv.dims.zip p.dims).map (fun x => taken ((f.dims.lookup x.1).getD none) x.2) ≠ a.shape then .error .valueError
      else .ok { f with
        vars := f.vars.map fun x => if x.1 = p.name then (x.1, putBlock cfg.dflt nv p a) else x
        extent := newExtent nv.dims p f.extent }

/-- `write_variable` (nc.py:59-176).  A variable of that name in the file is an error of the library.
An empty variable stops the run on every rank (`raise_if_empty`, src/ocgis/base.py:251-258); here it is an exception of the one rank. -/
def writeVar {α : Type} (cfg : Cfg α) (mode : Mode) (p : Piece α) (f : NcFile α) : Res (NcFile α) :=
  if p.dims.any Dim.isEmpty then .error .emptyObject
  else
    match mode with
    | .fill =>
      match f.vars.lookup p.name with
      | none => .error .keyError
      | some nv => writeData cfg p nv f
    | _ =>
      if (f.vars.map Prod.fst).contains p.name then .error .runtimeError
      else
        let nv : NcVar α := ⟨p.dims.map Dim.name, fillValue cfg mode p, fun _ => (fillValue cfg mode p).getD cfg.dflt, p.attrs⟩
        let f := { f with
          dims := (declared cfg mode p.dims).foldl createDim f.dims
          vars := f.vars ++ [(p.name, nv)] }
        if mode = .template then .ok f else writeData cfg p nv f

/-! ### The ranks -/

/-- What a rank does. -/
inductive Op (α : Type) where
  | openFile (mode : Mode) (attrs : List (String × String))
  | write (mode : Mode) (p : Piece α)
  | close
  | barrier

/-- A rank's collection: its attributes and its variables. -/
structure Coll (α : Type) where
  attrs : List (String × String) := []
  pieces : List (Piece α)

/-- A rank's turn (nc.py:203-223). -/
def turn {α : Type} (mode : Mode) (c : Coll α) : List (Op α) :=
  .openFile mode c.attrs :: (c.pieces.filter fun p => decide (p.kind ≠ .geometry)).map (Op.write mode) ++ [.close]

/-- The loop over the ranks (nc.py:196-226) as rank `me` runs it. -/
def loop {α : Type} (size me : Nat) (c : Coll α) (mode : Mode) : List (Op α) :=
  (List.range size).flatMap fun r =>
    (if mode = .template ∧ r ≠ 0 then [] else if me = r then turn mode c else []) ++ [.barrier]

/-- The write modes (driver/base.py:824-830). -/
def writeModes (size : Nat) : List Mode := if 1 < size then [.template, .fill] else [.normal]

/-- What rank `me` does when asked to write (driver/base.py:774-800). -/
def program {α : Type} (size me : Nat) (c : Coll α) : List (Op α) := (writeModes size).flatMap (loop size me c)

/-- The file on disk, who has it open, who has raised an exception, and what the ranks have yet to do. -/
structure State (α : Type) where
  file : Option (NcFile α)
  opened : List Nat := []
  raised : List Nat := []
  progs : List (List (Op α))

/-- What an operation does to the file.  Opening to write makes a new one with the collection's attributes. -/
def effect {α : Type} (cfg : Cfg α) (file : Option (NcFile α)) : Op α → Res (Option (NcFile α))
  | .openFile .fill _ => .ok (some (file.getD {}))
  | .openFile _ attrs => .ok (some { attrs := attrs })
  | .write mode p =>
    match file with
    | none => .error .ioError
    | some f =>
      match writeVar cfg mode p f with
      | .error e => .error e
      | .ok f => .ok (some f)
  | .close => .ok file
  | .barrier => .ok file

/-- Who has the file open after an operation of rank `i`. -/
def holders {α : Type} (i : Nat) (opened : List Nat) : Op α → List Nat
  | .openFile _ _ => i :: opened
  | .close => opened.erase i
  | _ => opened

/-- The ranks run in any order, but leave a barrier together.  A rank that raises an exception closes the file and does nothing more. -/
inductive Step {α : Type} (cfg : Cfg α) : State α → State α → Prop where
  | run (s : State α) (i : Nat) (op : Op α) (rest : List (Op α)) (file : Option (NcFile α)) :
    s.progs[i]? = some (op :: rest) → (∀ r, op :: rest ≠ .barrier :: r) → effect cfg s.file op = .ok file →
    Step cfg s { s with file := file, opened := holders i s.opened op, progs := s.progs.set i rest }
  | fail (s : State α) (i : Nat) (op : Op α) (rest : List (Op α)) (e : PyErr) :
    s.progs[i]? = some (op :: rest) → (∀ r, op :: rest ≠ .barrier :: r) → effect cfg s.file op = .error e →
    Step cfg s { s with opened := s.opened.erase i, raised := i :: s.raised, progs := s.progs.set i [] }
  | sync (s : State α) : s.progs ≠ [] → (∀ p ∈ s.progs, ∃ rest, p = .barrier :: rest) →
    Step cfg s { s with progs := s.progs.map List.tail }

/-- Any number of steps. -/
inductive Steps {α : Type} (cfg : Cfg α) : State α → State α → Prop where
  | refl (s : State α) : Steps cfg s s
  | step {s t u : State α} : Steps cfg s t → Step cfg t u → Steps cfg s u

/-- The ranks before the first step. -/
def start {α : Type} (file : Option (NcFile α)) (colls : List (Coll α)) : State α :=
  { file := file
    progs := (List.range colls.length).zipWith (fun i c => program colls.length i c) colls }

end Ocgis.NcWrite
