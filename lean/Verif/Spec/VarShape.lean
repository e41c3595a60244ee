import Verif.Model.VarShape
import Mathlib.Data.List.Forall2
/-!
# What should hold of variables and their dimensions
-/
namespace Ocgis.Spec
open Ocgis.VarShape

variable {α : Type}

/-- `ds` are the dimensions of the variable: the objects its collection has under the names. -/
def HasDims (w : World α) (v : Vr α) (ds : List Dim) : Prop :=
  List.Forall₂ (fun n d => ∃ c r, w.colls[v.coll]? = some c ∧ c.lookup n = some r ∧ w.heap[r]? = some d) (v.dims.getD []) ds

/-- The array has this shape, and as many elements as it tells. -/
def OfShape {β : Type} (a : NArr β) (shape : List Nat) : Prop := a.shape = shape ∧ a.data.length = shape.foldr (· * ·) 1

/-- The variable's value and mask, if there are any, have the lengths of its dimensions. -/
def Fitting (w : World α) (v : Vr α) : Prop :=
  ∃ ds, HasDims w v ds ∧ (v.dims.getD []).Nodup ∧ (∀ a, v.value = some a → OfShape a (ds.map Dim.len)) ∧
    ∀ m, v.mask = some m → OfShape m (ds.map Dim.len)

/-- Collections have dimension objects under their own names. -/
def DimsNamed (w : World α) : Prop := ∀ c ∈ w.colls, ∀ p ∈ c, ∃ d, w.heap[p.2]? = some d ∧ d.name = p.1

/-- All dimensions have a size, and all variables fit. -/
structure AllFit (w : World α) : Prop where
  sized : ∀ d ∈ w.heap, d.size.isSome = true
  named : DimsNamed w
  fit : ∀ v ∈ w.vars, v.coll < w.colls.length ∧ Fitting w v

/-- The variable has this dimension object. -/
def Uses (w : World α) (v : Vr α) (r : Nat) : Prop := ∃ n ∈ v.dims.getD [], ∃ c, w.colls[v.coll]? = some c ∧ c.lookup n = some r

/-- An array as NumPy makes them. -/
def Proper {β : Type} (a : NArr β) : Prop := OfShape a a.shape

/-- Variable `i` has a value, or no mask either. -/
def NoBareMask (w : World α) (i : Nat) : Prop := ∀ v, w.vars[i]? = some v → v.mask = none ∨ v.value ≠ none

/-- Dimensions have sizes; nothing is forced; variables that have a mask but no value do not get other dimensions; creation,
new dimensions and new bounds are not refused. -/
def CarefulOp (w : World α) (o : Op α) : Prop :=
  match o with
  | .newDim _ size _ => size.isSome = true
  | .create _ _ value _ mask => (step w o).2 = none ∧ (∀ a, value = some a → Proper a) ∧ ∀ m, mask = some m → Proper m
  | .setDims i _ force => (step w o).2 = none ∧ force = false ∧ NoBareMask w i ∧
      ∀ v b, w.vars[i]? = some v → v.bounds = some b → NoBareMask w b
  | .setMask _ mask _ => ∀ m, mask = some m → Proper m
  | .setValue _ value mask _ => (∀ a, value = some a → Proper a) ∧ ∀ m, mask = some m → Proper m
  | .setBounds _ _ force => (step w o).2 = none ∧ force = false
  | _ => True

/-- Every operation of the history is careful in the state it meets. -/
def CarefulOps (w : World α) : List (Op α) → Prop
  | [] => True
  | o :: os => CarefulOp w o ∧ CarefulOps (step w o).1 os

end Ocgis.Spec
