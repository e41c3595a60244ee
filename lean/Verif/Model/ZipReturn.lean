import Verif.Py
/-!
# The archive of the output

Models `format_return`, `get_items` and `compress_path` (util/zipper.py:30-96).  A folder is the list of the files below it in the order of
`os.walk`, each with the folders on the way to it; contents are numbers.  In an archive a name may occur more than once; the last one is what is found
and what stays after extraction.
-/
namespace Ocgis.ZipReturn

/-- A file below a folder. -/
structure File where
  dirs : List String
  name : String
  content : Nat
  deriving DecidableEq, Repr

/-- An entry of an archive: what it is read from, its name in the archive, and its content. -/
structure Entry where
  source : List String
  arcname : List String
  content : Nat
  deriving DecidableEq, Repr

/-- The files of `os.walk(folder)`: none for the empty path. -/
def walk (folder : List String) (files : List File) : List File := if folder = [] then [] else files

/-- `get_items(folder)` (util/zipper.py:40-50): only the folder `shp` stays in the name. -/
def items (folder : List String) (files : List File) : List Entry :=
  (walk folder files).map fun f =>
    { source := folder ++ f.dirs ++ [f.name],
      arcname := if (folder ++ f.dirs).getLast? = some "shp" then ["shp", f.name] else [f.name],
      content := f.content }

/-- What is found under a name in an archive. -/
def extract (archive : List Entry) (name : List String) : Option Nat := (archive.reverse.find? fun e => e.arcname == name).map (·.content)

/-- The output of `format_return`: a path, and the archive if one was written there. -/
structure Returned where
  path : List String
  archive : Option (List Entry)
  deriving DecidableEq, Repr

/-- `format_return(ret_path, ops, with_auxiliary_files)` (util/zipper.py:59-96) for a path of a folder and a name. -/
def formatReturn (folder : List String) (name : String) (files : List File) (format pre : String) (auxiliary : Bool) : Res Returned :=
  if format = "ocgis" then .error .notImplemented
  else if format ∈ ["csv", "nc"] ∧ auxiliary = false then .ok ⟨folder ++ [name], none⟩
  else .ok ⟨folder ++ [pre ++ ".zip"], some (items folder files)⟩

end Ocgis.ZipReturn
