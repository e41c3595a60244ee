import Verif.Model.AggNc
import Mathlib.Data.List.Forall2
/-!
# What an aggregated netCDF file should show
-/
namespace Ocgis.Spec
open Ocgis.AggNc

/-- The file has the value `v` for variable `n` at place `j` of the dimension of the geometries. -/
def ShowsAt {α : Type} (file : File α) (n : String) (j : Nat) (v : Cell α) : Prop :=
  ∃ fv ∈ file.vars, fv.name = n ∧ fv.place = .geom ∧ fv.cells[j]? = some (some v)

/-- The file has the value `v` for variable `n`, which does not have the dimension of the geometries. -/
def ShowsPlain {α : Type} (file : File α) (n : String) (v : Cell α) : Prop :=
  ∃ fv ∈ file.vars, fv.name = n ∧ fv.place = .plain ∧ fv.cells = [some v]

/-- A variable of the field that is kept: it is neither a coordinate nor its bounds nor the mask. -/
def IsKept {α : Type} (f : Fld α) (v : Vr α) : Prop :=
  v ∈ f.vars ∧ v.name ≠ maskName ∧ f.x ≠ some v.name ∧ f.y ≠ some v.name ∧
    ∀ w ∈ f.vars, f.x = some w.name ∨ f.y = some w.name → w.bounds ≠ some v.name

/-- The names in a collection are fit for use: no name twice (fields are dictionaries), and the coordinates are not named
like the mask. -/
def FitNames {α : Type} (c : Col α) : Prop :=
  ∀ f ∈ c.fields, (f.vars.map Vr.name).Nodup ∧ f.x ≠ some maskName ∧ f.y ≠ some maskName

/-- Text or numbers. -/
def isText {α : Type} : Cell α → Bool
  | .num _ => false
  | .text _ => true

/-- The width of text in a file created with this value. -/
def roomFor {α : Type} (width : Option Nat) : Cell α → Nat
  | .num _ => 0
  | .text s => width.getD s.length

/-- The length of text. -/
def lengthOf {α : Type} : Cell α → Nat
  | .num _ => 0
  | .text s => s.length

/-- A collection that can be formatted: its field has two coordinates and an identifier, no property is named like a variable
of the field, and no two properties alike. -/
structure Formattable {α : Type} (c : Col α) (f : Fld α) (xn yn : String) : Prop where
  field : c.fields.head? = some f
  x : f.x = some xn
  y : f.y = some yn
  hasX : ∃ v ∈ f.vars, v.name = xn
  hasY : ∃ v ∈ f.vars, v.name = yn ∧ ∀ w ∈ f.vars, w.name = xn → w.bounds ≠ some yn
  ne : xn ≠ yn
  gid : ∃ v, IsKept f v ∧ v.name = gidName
  fresh : ∀ p ∈ c.props, ∀ v ∈ f.vars, p.key ≠ v.name
  once : (c.props.map Prop'.key).Nodup

/-- The values of one collection can stand beside those of another: the same variables and properties in the same order, of
the same kinds, and texts for which the other has room. -/
structure Beside {α : Type} (c d : Col α) (f g : Fld α) : Prop where
  x : f.x = g.x
  y : f.y = g.y
  vars : List.Forall₂ (fun v w => v.name = w.name ∧ v.place = w.place ∧ v.bounds = w.bounds ∧ isText v.cell = isText w.cell ∧
    lengthOf v.cell ≤ roomFor w.width w.cell) f.vars g.vars
  props : List.Forall₂ (fun v w => v.key = w.key ∧ isText v.cell = isText w.cell ∧ lengthOf v.cell ≤ roomFor w.width w.cell) c.props d.props

/-- A request dataset tells that its file has this format. -/
def Tells (s : Src) (f : String) : Prop := ∃ fs, (s = .netcdf (some fs) ∨ s = .other (some fs)) ∧ f ∈ fs

end Ocgis.Spec
