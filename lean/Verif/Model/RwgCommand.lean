import Verif.Py
/-!
# The command `ocli chunked-rwg`

The files and directories the command makes, changes and removes, for every combination of its options (ocli.py:98-245), on one
process.  Paths are absolute and have no links or `..` in them (`os.path.realpath`).  What grids, ESMF and the chunker compute is
given by `Ext`: each of these steps may fail.
-/
namespace Ocgis.Rwg

/-- A path: its components below the root. -/
abbrev Path := List String

/-- What is at a path: a directory, or a file with its content and whether the history attributes have been added. -/
inductive Node
  | dir
  | file (content : String) (history : Bool)
  deriving DecidableEq, Repr

/-- The file system. -/
abbrev FS := Path → Option Node

/-- The file system with another node at a path. -/
def put (fs : FS) (p : Path) (n : Node) : FS := fun q => if q = p then some n else fs q

/-- The state that is left, and the exception. -/
abbrev Out := FS × Option PyErr

/-- One step after the other, as long as there is no exception. -/
def andThen (o : Out) (f : FS → Out) : Out :=
  match o with
  | (fs, some e) => (fs, some e)
  | (fs, none) => f fs

/-- A step outside of the model that may fail. -/
def may (e : Option PyErr) (fs : FS) : Out := (fs, e)

/-- Create or overwrite a file: its directory has to be there. -/
def write (fs : FS) (p : Path) (content : String) : Out :=
  if p ≠ [] ∧ fs p.dropLast = some .dir ∧ fs p ≠ some .dir then (put fs p (.file content false), none)
  else (fs, some .ioError)

/-- `os.makedirs(path)` for a path that is not there (ocli.py:148): also the directories above it. -/
def makedirs (fs : FS) (p : Path) : Out :=
  if (List.range (p.length + 1)).all fun k => fs (p.take k) = none ∨ fs (p.take k) = some .dir then
    (fun q => if q.isPrefixOf p then some .dir else fs q, none)
  else (fs, some .ioError)

/-- `shutil.rmtree(path)` (ocli.py:241). -/
def rmtree (fs : FS) (p : Path) : Out :=
  if fs p = some .dir then (fun q => if p.isPrefixOf q then none else fs q, none)
  else (fs, some .ioError)

/-- The length of the common beginning of two paths. -/
def common : Path → Path → Nat
  | a :: as, b :: bs => if a = b then common as bs + 1 else 0
  | _, _ => 0

/-- `os.path.relpath(path, start)`: the components. -/
def relpath (path start : Path) : List String :=
  List.replicate (start.length - common path start) ".." ++ path.drop (common path start)

/-- `_is_subdir_(path, potential_subpath)` (ocli.py:322-327): the relative path does not begin with `../`. -/
def isSubdir (path sub : Path) : Bool :=
  match relpath path sub with
  | ".." :: _ :: _ => false
  | _ => true

/-- The options of the command (ocli.py:40-97) that decide about files.  `nchunks` is `some none` for a text that is not a list of
integers. -/
structure Opts where
  nchunks : Option (Option (List Int)) := none
  merge : Bool := true
  genweights : Bool := true
  spatial : Bool := false
  persist : Bool := false
  weight : Option Path := none
  wd : Option Path := none
  subsetPath : Option Path := none
  srcType : String := "GRIDSPEC"
  dstType : String := "GRIDSPEC"

/-- What happens outside: the temporary directory that would be made; whether data can be opened, the subset be found, the chunker
be made, chunks be written (else after how many files), weights be computed and merged; whether the chunker would by itself use
one chunk; how many chunks there are and which have source data. -/
structure Ext where
  tmp : Path
  opening : Option PyErr := none
  subset : Option PyErr := none
  chunker : Option PyErr := none
  defaultOne : Res Bool := .ok false
  nfiles : Nat := 1
  live : Nat → Bool := fun _ => true
  chunkFail : Option (Nat × PyErr) := none
  weights : Option PyErr := none
  merging : Option PyErr := none

/-- `_create_request_dataset_` (ocli.py:308-313): the driver of a grid type. -/
def driverOf (t : String) : Res String :=
  match t with
  | "GRIDSPEC" => .ok "netcdf-cf"
  | "UGRID" => .ok "netcdf-ugrid"
  | "SCRIP" => .ok "netcdf-scrip"
  | "ESMFMESH" => .ok "netcdf-esmf-unstruct"
  | _ => .error .keyError

/-- ocli.py:133: `nchunks_dst` is not all ones, or a subset is wanted. -/
def shouldCreate (n : Option (List Int)) (spatial : Bool) : Bool :=
  (match n with
    | none => true
    | some l => !(l.all fun i => i == 1)) || spatial

/-- The working directory (ocli.py:133-156): the file system, and the directory or an exception. -/
def prepare (o : Opts) (x : Ext) (n : Option (List Int)) (fs : FS) : FS × Res (Option Path) :=
  if shouldCreate n o.spatial then
    let r : FS × Res Path := match o.wd with
      | none => (put fs x.tmp .dir, .ok x.tmp)
      | some wd =>
        if n.isSome then
          if fs wd ≠ none then (fs, .error .valueError)
          else match makedirs fs wd with
            | (fs, some e) => (fs, .error e)
            | (fs, none) => (fs, .ok wd)
        else (fs, .ok wd)
    match r with
    | (fs, .error e) => (fs, .error e)
    | (fs, .ok wd) =>
      if (o.merge && !o.spatial) || (o.spatial && o.genweights) then
        match o.weight with
        | none => (fs, .error .typeError)
        | some p => if isSubdir wd p then (fs, .error .valueError) else (fs, .ok (some wd))
      else (fs, .ok (some wd))
  else (fs, .ok o.wd)

/-- The names of the files of one chunk, in the order they are written (spatial/grid_chunker.py:721-760, constants.py:513-516): an
empty source is not written. -/
def chunkNames (genweights : Bool) (live : Nat → Bool) (i : Nat) : List String :=
  (if live i then [s!"split_src_{i}.nc"] else []) ++ [s!"split_dst_{i}.nc"] ++ if genweights && live i then [s!"esmf_weights_{i}.nc"] else []

/-- Write files of these names one after the other. -/
def writeAll (wd : Path) : FS → List String → Out
  | fs, [] => (fs, none)
  | fs, n :: ns => andThen (write fs (wd ++ [n]) "chunk") fun fs => writeAll wd fs ns

/-- The name of the index file (constants.py:516). -/
def indexName : String := "01-split_index.nc"

/-- `write_chunks()` (spatial/grid_chunker.py:697-820): the files of the chunks, counted from 1, then the index. -/
def writeChunks (o : Opts) (x : Ext) (wd : Path) (fs : FS) : Out :=
  let names := (List.range x.nfiles).flatMap fun i => chunkNames o.genweights x.live (i + 1)
  match x.chunkFail with
  | some (k, e) => andThen (writeAll wd fs (names.take k)) fun fs => (fs, some e)
  | none => writeAll wd fs (names ++ [indexName])

/-- `gs.is_one_chunk` (spatial/grid_chunker.py:218-228). -/
def isOne (x : Ext) (n : Option (List Int)) : Res Bool :=
  match n with
  | none => x.defaultOne
  | some l => .ok (l.all fun i => i == 1)

/-- ocli.py:162-173: the subset of the source, and the path it is written to. -/
def subsetStep (o : Opts) (x : Ext) (wd : Option Path) (fs : FS) : Out :=
  if o.spatial then
    match o.subsetPath, wd with
    | none, none => (fs, some .typeError)
    | some p, _ => andThen (may x.subset fs) fun fs => write fs p "subset"
    | none, some wd => andThen (may x.subset fs) fun fs => write fs (wd ++ ["spatial_subset.nc"]) "subset"
  else (fs, none)

/-- ocli.py:197-201 with spatial/grid_chunker.py:822-887 and `handle_weight_file_check` (ocli.py:25-31). -/
def weightStep (o : Opts) (x : Ext) (fs : FS) : Out :=
  if o.genweights then
    match o.weight with
    | none => (fs, some .assertionError)
    | some p =>
      if fs p ≠ none then (fs, some .ioError)
      else andThen (may x.weights fs) fun fs => write fs p "weights"
  else (fs, none)

/-- ocli.py:190-201. -/
def computeStep (o : Opts) (x : Ext) (n : Option (List Int)) (wd : Option Path) (fs : FS) : Out :=
  if !o.spatial && n.isSome then
    match isOne x n with
    | .error e => (fs, some e)
    | .ok true => weightStep o x fs
    | .ok false => match wd with
      | none => (fs, some .typeError)
      | some wd => writeChunks o x wd fs
  else weightStep o x fs

/-- ocli.py:205-220 with `create_merged_weight_file` (spatial/grid_chunker.py:301-355): the index has to be there. -/
def mergeStep (o : Opts) (x : Ext) (n : Option (List Int)) (wd : Option Path) (fs : FS) : Out :=
  if o.merge && !o.spatial then
    match isOne x n with
    | .error e => (fs, some e)
    | .ok true => (fs, none)
    | .ok false =>
      match o.weight, wd with
      | some p, some wd =>
        if fs p ≠ none then (fs, some .ioError)
        else if fs (wd ++ [indexName]) = none then (fs, some .ioError)
        else andThen (may x.merging fs) fun fs => write fs p "merged"
      | _, _ => (fs, some .typeError)
  else (fs, none)

/-- ocli.py:222-234: attributes are added to the weight file, if there is one. -/
def historyStep (o : Opts) (fs : FS) : Out :=
  match o.weight with
  | none => (fs, none)
  | some p => match fs p with
    | none => (fs, none)
    | some .dir => (fs, some .ioError)
    | some (.file c _) => (put fs p (.file c true), none)

/-- ocli.py:236-242. -/
def removeStep (o : Opts) (wd : Option Path) (fs : FS) : Out :=
  if o.persist then (fs, none)
  else match wd with
    | none => (fs, some .typeError)
    | some wd => rmtree fs wd

/-- ocli.py:158-245: what is done once the working directory is known. -/
def body (o : Opts) (x : Ext) (n : Option (List Int)) (wd : Option Path) (fs : FS) : Out :=
  match driverOf o.srcType, driverOf o.dstType with
  | .ok _, .ok _ =>
    andThen (may x.opening fs) fun fs =>
    andThen (subsetStep o x wd fs) fun fs =>
    andThen (may x.chunker fs) fun fs =>
    andThen (computeStep o x n wd fs) fun fs =>
    andThen (mergeStep o x n wd fs) fun fs =>
    andThen (historyStep o fs) fun fs =>
    removeStep o wd fs
  | _, _ => (fs, some .keyError)

/-- `chunked-rwg` (ocli.py:98-245). -/
def rwg (o : Opts) (x : Ext) (fs : FS) : Out :=
  if o.nchunks = some none then (fs, some .valueError)
  else if o.merge && !o.spatial && o.weight.isNone then (fs, some .valueError)
  else if o.spatial && o.genweights && o.weight.isNone then (fs, some .valueError)
  else match prepare o x (o.nchunks.bind id) fs with
    | (fs, .error e) => (fs, some e)
    | (fs, .ok wd) => body o x (o.nchunks.bind id) wd fs

end Ocgis.Rwg
