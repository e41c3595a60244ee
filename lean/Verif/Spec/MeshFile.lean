import Verif.Model.MeshFile

/-!
# What is expected of mesh files
-/

namespace Ocgis.Spec
open Ocgis Ocgis.Text Ocgis.MeshFile Ocgis.MeshReduce

/-- The names of the coordinates of a topology. -/
def topoNames (t : Topo) : List Text := t.x.toList ++ t.y.toList ++ t.z.toList

/-- A topology without coordinates, or with both `x` and `y`, whose names are variables with a dimension and have no
blank. -/
def UsableTopo (vars : List (Text × VarInfo)) (t : Topo) : Prop :=
  (t.x.isSome → t.y.isSome) ∧ ∀ n ∈ topoNames t, ' ' ∉ n ∧ ∃ v, vars.lookup n = some v ∧ v.dims ≠ []

/-- Just these names were read, in this order, each with the first dimension of its variable. -/
def LeadsTo (vars : List (Text × VarInfo)) (names : List Text) (cs : List (Text × Text)) : Prop :=
  cs.map Prod.fst = names ∧ ∀ p ∈ cs, ∃ v rest, vars.lookup p.1 = some v ∧ v.dims = p.2 :: rest

/-- The shapes of a mesh in the UGRID representation. -/
def ugridShapes {α : Type _} (m : UgridMesh α) : Res (List (Option (List (List (α × α))))) :=
  Mesh.shapes ⟨List.zip m.x m.y, .rows m.rows, true, m.start, m.brk, none, 0, []⟩

/-- The shapes of a mesh read from an ESMF file whose coordinates are vectors. -/
def esmfShapes {α : Type _} (m : EsmfMesh α) (x y : List α) : Res (List (Option (List (List (α × α))))) :=
  Mesh.shapes ⟨List.zip x y, m.conn, false, m.start, m.brk, none, 1, []⟩

/-- Two columns, at least two rows. -/
def TwoColumns {α : Type _} (rows : List (List α)) : Prop := 1 < rows.length ∧ ∀ r ∈ rows, r.length = 2

end Ocgis.Spec
