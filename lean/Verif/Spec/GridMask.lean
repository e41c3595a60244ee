import Verif.Model.GridMask
import Verif.Spec.Masks
/-!
# The mask of a grid
-/
namespace Ocgis.Spec
open Ocgis.Array (Arr)
open Ocgis.Masks Ocgis.GridMask

/-- A field whose variables are kept under their names and whose mask variable, if it has one, is there, says that it is one and lies
on the grid; a variable of the default name is the mask variable. -/
structure MaskReady (g : GridField) : Prop where
  named : ∀ k v, g.vars.lookup k = some v → v.var.name = k
  mask : ∀ n, g.mask = some n → ∃ v, g.vars.lookup n = some v ∧ v.role = true ∧ v.var.names = g.names ∧ v.var.shape = g.shape
  default : g.vars.lookup "ocgis_spatial_mask" ≠ none → g.mask = some "ocgis_spatial_mask"

/-- The grid is the same: dimensions, coordinates, bounds. -/
def SameGrid (g h : GridField) : Prop :=
  h.names = g.names ∧ h.shape = g.shape ∧ h.coords = g.coords ∧ h.bounds = g.bounds

/-- The variable hides the value at the index: by its mask or, without one, because it is the fill value. -/
def Hides (v : GV) (idx : List Nat) : Prop :=
  match v.var.mask with
  | some m => m idx = true
  | none => v.filled idx = true

/-- The mask a grid has after a history, if it had the mask `now` before. -/
def maskAfter (now : Option (List Nat → Bool)) : List Op → Option (List Nat → Bool)
  | [] => now
  | .set a :: os => maskAfter (some a.elem) os
  | .remove :: os => maskAfter none os
  | .get false :: os => maskAfter now os
  | .get true :: os => maskAfter (some (now.getD fun _ => false)) os

/-- Dimensions of the same name have the same size throughout the field, and a variable has a dimension once. -/
structure OneSize (g : GridField) : Prop where
  grid : g.names.Nodup ∧ g.names.length = g.shape.length
  vars : ∀ e ∈ g.vars, e.2.var.name = e.1 ∧ e.2.var.names.Nodup ∧ e.2.var.names.length = e.2.var.shape.length ∧
    SameSizes g.names e.2.var.names g.shape e.2.var.shape

/-- A variable that belongs to the grid itself: a coordinate, its bounds or the mask. -/
def OfGrid (g : GridField) (k : String) : Prop := k ∈ g.coords ∨ k ∈ g.bounds ∨ g.mask = some k

end Ocgis.Spec
