import Verif.Model.ZipReturn
/-!
# What the archive should have
-/
namespace Ocgis.Spec
open ZipReturn

/-- A file is directly in a folder called `shp`; the output folder itself may be called so. -/
def InShp (folder : List String) (f : File) : Prop := ∃ l, folder ++ f.dirs = l ++ ["shp"]

/-- Files that are told apart by their names and by being in a folder `shp` or not. -/
def ApartFiles (folder : List String) (files : List File) : Prop :=
  ∀ f ∈ files, ∀ g ∈ files, f.name = g.name → (InShp folder f ↔ InShp folder g) → f.content = g.content

/-- The archive has a file under this name. -/
def ArchiveHas (archive : List Entry) (name : List String) (content : Nat) : Prop :=
  ∃ a e b, archive = a ++ e :: b ∧ e.arcname = name ∧ e.content = content ∧ ∀ e' ∈ b, e'.arcname ≠ name

end Ocgis.Spec
