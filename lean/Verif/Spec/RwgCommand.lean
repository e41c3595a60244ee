import Verif.Model.RwgCommand
/-!
# What the command may do to files
-/
namespace Ocgis.Spec
open Ocgis.Rwg

/-- A file system: what is in something is in a directory, and the root is one. -/
def ProperFS (fs : FS) : Prop := fs [] = some .dir ∧ ∀ p q : Path, p <+: q → p ≠ q → fs q ≠ none → fs p = some .dir

/-- The file system with these nodes. -/
def ofNodes (l : List (Path × Node)) : FS := fun q => (l.find? fun e => e.1 = q).map (·.2)

/-- The command makes its working directory itself: there is something to chunk, and the directory is a temporary one or
`nchunks_dst` is given. -/
def MakesItsOwn (o : Opts) : Prop :=
  (o.spatial = true ∨ ∀ l, o.nchunks = some (some l) → ∃ i ∈ l, i ≠ 1) ∧ (o.wd = none ∨ ∃ l, o.nchunks = some (some l))

/-- The temporary directory is a new one in a directory that is there. -/
def FreshTmp (x : Ext) (fs : FS) : Prop := fs x.tmp = none ∧ fs x.tmp.dropLast = some .dir

/-- The working directory. -/
def workDir (o : Opts) (x : Ext) : Path := o.wd.getD x.tmp

/-- All destinations are in one chunk. -/
def OneChunk (o : Opts) (x : Ext) : Prop :=
  match o.nchunks with
  | some (some l) => ∀ i ∈ l, i = 1
  | _ => x.defaultOne = .ok true

/-- The command is asked for one weight file, computed at once. -/
def AsksWeights (o : Opts) (x : Ext) : Prop :=
  o.genweights = true ∧ (o.spatial = true ∨ o.nchunks = none ∨ OneChunk o x)

/-- The command is asked for a weight file merged from chunks. -/
def AsksMerged (o : Opts) (x : Ext) : Prop := o.merge = true ∧ o.spatial = false ∧ ¬ OneChunk o x

/-- The names of files the command makes in its working directory: the index, the subset if one is asked for, and for each chunk
the destination, for those with source data the source and, if asked for, the weights. -/
def OwnName (o : Opts) (x : Ext) (n : String) : Prop :=
  n = "01-split_index.nc" ∨ (o.spatial = true ∧ n = "spatial_subset.nc") ∨
  ∃ i, 1 ≤ i ∧ i ≤ x.nfiles ∧ (n = s!"split_dst_{i}.nc" ∨
    (x.live i = true ∧ (n = s!"split_src_{i}.nc" ∨ (o.genweights = true ∧ n = s!"esmf_weights_{i}.nc"))))

/-- The grid types the command takes, and the drivers that read them. -/
def gridTypes : List (String × String) :=
  [("GRIDSPEC", "netcdf-cf"), ("UGRID", "netcdf-ugrid"), ("SCRIP", "netcdf-scrip"), ("ESMFMESH", "netcdf-esmf-unstruct")]

end Ocgis.Spec
