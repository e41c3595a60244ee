import Verif.Model.EsmfConvert
import Verif.Spec.Regrid
import Verif.Spec.Masks
/-! Vocabulary for the statements about ESMF objects. -/
namespace Ocgis.Spec
open Ocgis.Array (Arr Var)
open Ocgis.EsmfConvert
open Ocgis.Coords (Corners)

/-- The value of a variable where the index along each dimension is given by the dimension's name. -/
def valueAt {α : Type _} (v : Var α) (pos : String → Nat) : α := v.value.elem (v.names.map pos)

/-- The variable is masked there. -/
def MaskedThere {α : Type _} (v : Var α) (pos : String → Nat) : Prop := ∃ m, v.mask = some m ∧ m.elem (v.names.map pos) = true

/-- The position is inside. -/
def Within (size : String → Nat) (names : List String) (pos : String → Nat) : Prop := ∀ n ∈ names, pos n < size n

/-- The variable is the field's only data variable, of floating point numbers, over the grid and, if the field has a time, over time.
`size` gives the length of each dimension. -/
structure Convertible (f : EsmfConvert.Field) (v : DataVar) (size : String → Nat) : Prop where
  only : f.dataVars = [v]
  names : (f.vars.map (·.name)).Nodup
  float : v.dtype = .float32 ∨ v.dtype = .float64
  distinct : v.var.names.Nodup
  shape : v.var.value.shape = v.var.names.map size
  maskShape : ∀ m, v.var.mask = some m → m.shape = v.var.names.map size
  lat : f.yn ∈ v.var.names ∧ size f.yn = f.grid.ny
  lon : f.xn ∈ v.var.names ∧ size f.xn = f.grid.nx
  axes : f.yn ≠ f.xn
  time : ∀ t n, f.time = some (t, n) → t ∈ v.var.names ∧ t ≠ f.yn ∧ t ≠ f.xn ∧ size t = n
  others : ∀ w ∈ f.vars, w.var.names.Nodup ∧ w.var.value.shape = w.var.names.map size

/-- Variables with the same dimensions, values and mask. -/
structure SameVariable (size : String → Nat) (a b : Var Rat) : Prop where
  names : a.names = b.names
  shape : a.value.shape = b.value.shape
  values : ∀ pos, Within size a.names pos → valueAt a pos = valueAt b pos
  masked : ∀ pos, Within size a.names pos → (MaskedThere a pos ↔ MaskedThere b pos)

/-- The corners of a cell as a set. -/
def SameCornerSet (a b : Corners (Rat × Rat)) : Prop :=
  (∀ p ∈ [a.c0, a.c1, a.c2, a.c3], ∃ q ∈ [b.c0, b.c1, b.c2, b.c3], SamePlace p q) ∧
  (∀ q ∈ [b.c0, b.c1, b.c2, b.c3], ∃ p ∈ [a.c0, a.c1, a.c2, a.c3], SamePlace p q)

/-- The position with the given row and column (and corner). -/
def posOf (yn xn : String) (j i : Nat) (k : Nat := 0) : String → Nat := fun n => if n = yn then j else if n = xn then i else k

/-- Two rows, three columns. -/
def grid23 : Regrid.Grid where
  ny := 2
  nx := 3
  x _ i := 40 + 10 * (i : Rat)
  y j _ := 10 * (j : Rat)
  hidden := some fun j i => j == 0 && i == 2

/-- A variable over time, latitude and longitude with a mask of its own. -/
def tas : DataVar where
  name := "tas"
  var := ⟨["time", "lat", "lon"], ⟨[2, 2, 3], fun i => 100 * (i.getD 0 0 : Rat) + 10 * (i.getD 1 0 : Rat) + (i.getD 2 0 : Rat)⟩,
    some ⟨[2, 2, 3], fun i => i == [1, 1, 0]⟩⟩

/-- A variable over latitude and longitude only. -/
def orog : DataVar where
  name := "orog"
  var := ⟨["lat", "lon"], ⟨[2, 3], fun i => 10 * (i.getD 0 0 : Rat) + (i.getD 1 0 : Rat)⟩, some ⟨[2, 3], fun i => i == [1, 1]⟩⟩

/-- A field with one variable. -/
def convField (time : Option (String × Nat)) (v : DataVar) : EsmfConvert.Field where
  grid := grid23
  yn := "lat"
  xn := "lon"
  time := time
  vars := [v]

end Ocgis.Spec
