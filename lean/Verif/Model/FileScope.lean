import Verif.Py
/-!
# Opening and closing files

`driver_scope` (driver/base.py:943-976) with `open`, `close` and `inquire_opened_state` of the drivers, inside programs that
open further scopes, use the file and fail anywhere.  A process is given by the files it has open and a log of what it did to
them.  What the libraries for files do is an environment: which files can be opened and which groups they have.
-/
namespace Ocgis.FileScope

/-- An open file object: the number of the file opened and, for a group of it, the names leading to the group. -/
structure Handle where
  id : Nat
  group : List String
  deriving DecidableEq, Repr

/-- Keyword arguments; the value of one is a list of strings. -/
abbrev Kw := List (String × List String)

/-- `d[k] = v`. -/
def kwSet (d : Kw) (k : String) (v : List String) : Kw :=
  if d.any (fun p => p.1 == k) then d.map (fun p => if p.1 == k then (k, v) else p) else d ++ [(k, v)]

/-- `d.update(e)`. -/
def kwUpdate (d e : Kw) : Kw := e.foldl (fun d p => kwSet d p.1 p.2) d

/-- `d.pop(k, None)`, without the value. -/
def kwPop (d : Kw) (k : String) : Kw := d.filter fun p => p.1 != k

/-- What is done to files: opened under a number, with locations, mode and keyword arguments; closed; used. -/
inductive Ev
  | opened (id : Nat) (uris : List String) (mode : String) (kw : Kw)
  | closed (id : Nat)
  | used (h : Handle)
  deriving DecidableEq, Repr

/-- The process: the numbers of the open files, the next number, the log. -/
structure World where
  opens : List Nat
  next : Nat
  log : List Ev
  deriving DecidableEq, Repr

/-- The libraries and the run: files that can be opened, groups that exist, the kind of driver (`netcdf`, which knows the
keyword `group_indexing`, and `vector`, whose iterator for reading opens no file here and has nothing to close), the number of processes and the setting `USE_NETCDF4_MPI`. -/
structure World.Libs where
  canOpen : List String → String → Bool
  hasGroup : List String → List String → Bool
  netcdf : Bool
  vector : Bool
  size : Nat
  useMpi : Bool

abbrev Libs := World.Libs

/-- A request dataset, as far as it matters: the open file it was given, its location, its keyword arguments for the driver. -/
structure Req where
  opened : Option Handle
  uri : Option (List String)
  kw : Option Kw
  deriving DecidableEq, Repr

/-- What is scoped: an open object, or one or more locations. -/
inductive Target
  | handle (h : Handle)
  | uris (l : List String)
  | nothing
  deriving DecidableEq, Repr

/-- The arguments of `driver_scope`: the driver, which is an instance with a request dataset or a class, the open object or
path, the mode and further keyword arguments. -/
structure Scope where
  driver : Option Req
  given : Option Target
  mode : String
  kw : Kw
  deriving DecidableEq, Repr

/-- driver/base.py:947-962: what to scope, and the request dataset if it was consulted.  A request dataset without open file
and location gives `None`. -/
def chooseTarget (s : Scope) : Res (Target × Option Req) :=
  match s.given with
  | some t => .ok (t, none)
  | none =>
    match s.driver with
    | none => .error .valueError
    | some rd =>
      match rd.opened with
      | some h => .ok (.handle h, some rd)
      | none =>
        match rd.uri with
        | some u => .ok (.uris u, some rd)
        | none => .ok (.nothing, some rd)

/-- The keyword arguments after driver/nc.py:256-264: a file created by several processes is opened by all of them together
when the format allows it and either the caller or the environment asks for it. -/
def parallelKw (E : Libs) (uris : List String) (mode : String) (kw : Kw) : Kw :=
  if uris.length = 1 ∧ mode = "w" ∧ 1 < E.size then
    if (kw.lookup "format").getD ["NETCDF4"] = ["NETCDF4"] then
      let kw := if ((kw.lookup "parallel").getD []) = [] ∧ E.useMpi then kwSet kw "parallel" ["True"] else kw
      if (kw.lookup "parallel").getD [] = ["True"] ∧ ((kw.lookup "comm").getD []) = [] then kwSet kw "comm" ["world"] else kw
    else kw
  else kw

/-- driver/nc.py:273-275: the groups are entered one after the other. -/
def enter (E : Libs) (uris : List String) (h : Handle) : List String → Res Handle
  | [] => .ok h
  | g :: gs => if E.hasGroup uris (h.group ++ [g]) then enter E uris { h with group := h.group ++ [g] } gs else .error .keyError

/-- `_open_` (driver/nc.py:247-277, driver/vector.py:200-214, driver/base.py:853-859): the file is opened, if it can be, then
the groups are entered. -/
def openFile (E : Libs) (uris : List String) (mode : String) (kw : Kw) (w : World) : World × Res Handle :=
  if E.vector && mode == "r" then (w, .ok ⟨0, ["iterator"]⟩)
  else
    let groups := if E.netcdf then (kw.lookup "group_indexing").getD [] else []
    let kw := if E.netcdf then parallelKw E uris mode (kwPop kw "group_indexing") else kw
    if E.canOpen uris mode then
      let w' : World := ⟨w.next :: w.opens, w.next + 1, w.log ++ [.opened w.next uris mode kw]⟩
      (w', enter E uris ⟨w.next, []⟩ groups)
    else (w, .error .ioError)

/-- `close` (driver/base.py:134-140, 803-807, driver/vector.py:162-168), called by `driver_scope` without a request dataset.
netCDF4 refuses to close a group; a geometry iterator has nothing to close. -/
def closeFile (E : Libs) (mode : String) (h : Handle) (w : World) : World × Option PyErr :=
  if E.vector && mode == "r" then (w, none)
  else if h.group = [] then (⟨w.opens.erase h.id, w.next, w.log ++ [.closed h.id]⟩, none)
  else (w, some .ioError)

/-- A program that works with files: it ends, fails, uses the file of the innermost scope, runs a part inside `driver_scope`,
or runs a part whose exceptions it catches. -/
inductive Prog
  | done
  | fail (e : PyErr)
  | use (k : Prog)
  | scope (s : Scope) (body k : Prog)
  | attempt (body k : Prog)

/-- driver/base.py:964-970: the object to yield, and whether it is to be closed. -/
def enterScope (E : Libs) (s : Scope) (w : World) : World × Res (Option Handle × Bool) :=
  match chooseTarget s with
  | .error e => (w, .error e)
  | .ok (.handle h, _) => (w, .ok (some h, false))
  | .ok (.nothing, _) => (w, .ok (none, false))
  | .ok (.uris u, rd) =>
    let kw := match rd with
      | none => s.kw
      | some rd => match rd.kw with
        | none => s.kw
        | some k => kwUpdate s.kw k
    match openFile E u s.mode kw w with
    | (w', .error e) => (w', .error e)
    | (w', .ok h) => (w', .ok (some h, true))

/-- The run of a program: the process afterwards and the exception that leaves it, if any.  An exception of `close` replaces
the exception of the body (driver/base.py:972-976). -/
def run (E : Libs) : Prog → Option Handle → World → World × Option PyErr
  | .done, _, w => (w, none)
  | .fail e, _, w => (w, some e)
  | .use k, cur, w =>
    match cur with
    | none => (w, some .attributeError)
    | some h => run E k cur { w with log := w.log ++ [.used h] }
  | .scope s body k, cur, w =>
    match enterScope E s w with
    | (w1, .error e) => (w1, some e)
    | (w1, .ok (h, shouldClose)) =>
      let (w2, r) := run E body h w1
      let (w3, r) := match shouldClose, h with
        | true, some h =>
          match closeFile E s.mode h w2 with
          | (w3, some e) => (w3, some e)
          | (w3, none) => (w3, r)
        | _, _ => (w2, r)
      match r with
      | some e => (w3, some e)
      | none => run E k cur w3
  | .attempt body k, cur, w =>
    let (w1, _) := run E body cur w
    run E k cur w1

/-! ## How a file is created by several processes -/

/-- The passes over a file: everything at once by one process, a template by the first and filling by one after the other, or
all processes together. -/
inductive Mode
  | normal
  | template
  | fill
  | asynchronous
  deriving DecidableEq, Repr

/-- `DriverNetcdf._get_write_modes_` (driver/nc.py:234-242, driver/base.py:824-830). -/
def writeModes (E : Libs) (kw : Kw) : List Mode :=
  let base := if 1 < E.size then [Mode.template, .fill] else [.normal]
  if E.useMpi ∧ 1 < E.size then
    if (kw.lookup "format").getD ["NETCDF4"] = ["NETCDF4"] ∧ (kw.lookup "parallel").getD ["True"] = ["True"] then [.asynchronous]
    else base
  else base

/-- driver/nc.py:186-204: the mode of opening. -/
def openMode (m : Mode) : String := if m = .fill then "a" else "w"

/-- Whether all processes enter the scope of a pass together (driver/nc.py:192-205: a template is written by the first
process, a fill by one process after the other). -/
def together (E : Libs) (m : Mode) : Bool := decide (m = .asynchronous) || decide (E.size ≤ 1)

/-- The library opens the file for all processes: it waits for the others. -/
def opensParallel (E : Libs) (kw : Kw) (m : Mode) : Bool :=
  decide (((parallelKw E ["out.nc"] (openMode m) kw).lookup "parallel").getD [] = ["True"])

end Ocgis.FileScope
