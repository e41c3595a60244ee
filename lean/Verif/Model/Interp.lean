import Verif.Py

/-!
# Executing operations: the output directory

`OcgInterpreter.execute` (src/ocgis/ops/interpreter.py:61-150), run by every rank.  Between its file system calls a rank may
be overtaken by any other rank.
-/

namespace Ocgis.Interp
open Ocgis

/-- The directories that exist, with the names of the files in them. -/
abbrev Fs := String → Option (List String)

/-- `fs` with directory `d` set to `v`. -/
def Fs.set (fs : Fs) (d : String) (v : Option (List String)) : Fs := fun x => if x = d then v else fs x

/-- `shutil.rmtree(d)`, taken as one step. -/
def rmtree (fs : Fs) (d : String) : Res Fs :=
  match fs d with
  | none => .error .ioError
  | some _ => .ok (fs.set d none)

/-- `os.mkdir(d)`.  The parent is taken to exist (`dir_output` is checked when the operations are made). -/
def mkdir (fs : Fs) (d : String) : Res Fs :=
  match fs d with
  | some _ => .error .ioError
  | none => .ok (fs.set d (some []))

/-- What the `try` block (interpreter.py:97-133: logging, calculations, the converter) does to the file system. -/
inductive Action where
  /-- open a new file in a directory; fails if the directory is not there -/
  | write (dir name : String)
  /-- raise for any other reason -/
  | fail (e : PyErr)
  deriving DecidableEq, Repr

/-- One action. -/
def act (fs : Fs) : Action → Res Fs
  | .write d n =>
    match fs d with
    | none => .error .ioError
    | some files => .ok (fs.set d (some (files ++ [n])))
  | .fail e => .error e

/-- The settings: whether the output format takes no directory (`_no_directory`, 55-57), whether auxiliary files are asked
for, `env.OVERWRITE`, and `os.path.join(dir_output, prefix)`. -/
structure Config where
  noDirectory : Bool := false
  auxiliary : Bool := true
  overwrite : Bool := false
  outdir : String

/-- `made_output_directory` (70, 92). -/
def Config.makes (c : Config) : Bool := !c.noDirectory && c.auxiliary

/-- interpreter.py:72-95 on rank 0, up to the barrier. -/
def prepare (c : Config) (fs : Fs) : Res Fs :=
  if c.makes then
    match fs c.outdir with
    | none => mkdir fs c.outdir
    | some _ =>
      if c.overwrite then
        match rmtree fs c.outdir with
        | .error e => .error e
        | .ok fs1 => mkdir fs1 c.outdir
      else .error .ioError
  else .ok fs

/-- Where a rank is: waiting at the barrier, in the `try` block with the actions left, or done. -/
inductive Status where
  | waiting
  | running (rest : List Action)
  | returned
  | raised (e : PyErr)
  deriving DecidableEq, Repr

/-- All ranks and the file system. -/
structure World where
  fs : Fs
  status : Nat → Status

/-- `World` with rank `r` at `s`. -/
def World.put (w : World) (r : Nat) (s : Status) (fs : Fs) : World := ⟨fs, fun q => if q = r then s else w.status q⟩

/-- The state when the barrier is reached: rank 0 has prepared the directory, or has raised (81) while the others wait. -/
def start (c : Config) (progs : Nat → List Action) (fs : Fs) : World :=
  match prepare c fs with
  | .error e => ⟨fs, fun r => if r = 0 then .raised e else .waiting⟩
  | .ok fs1 => ⟨fs1, fun r => .running (progs r)⟩

/-- The bare `except` (137-144): rank 0 removes the directory it made; if that fails, its exception replaces the first. -/
def handler (c : Config) (r : Nat) (fs : Fs) (e : PyErr) : PyErr × Fs :=
  if r = 0 ∧ c.makes = true then
    match rmtree fs c.outdir with
    | .error e' => (e', fs)
    | .ok fs1 => (e, fs1)
  else (e, fs)

/-- One step of rank `r`. -/
def step (c : Config) (w : World) (r : Nat) : World :=
  match w.status r with
  | .running [] => w.put r .returned w.fs
  | .running (a :: rest) =>
    match act w.fs a with
    | .ok fs1 => w.put r (.running rest) fs1
    | .error e => w.put r (.raised (handler c r w.fs e).1) (handler c r w.fs e).2
  | _ => w

/-- An execution: `schedule` names the rank that moves next. -/
def execute (c : Config) (progs : Nat → List Action) (fs : Fs) (schedule : List Nat) : World :=
  schedule.foldl (step c) (start c progs fs)

end Ocgis.Interp
