import Verif.Model.RequestSize
/-!
# What the size of a request should be
-/
namespace Ocgis.Spec
open RequestSize

/-- Elements of an array with these lengths; one without dimensions has one element. -/
def elementsOf : List Nat → Nat
  | [] => 1
  | n :: ns => n * elementsOf ns

/-- Bytes of a variable that has a type. -/
def bytesOf (v : Var) (item : Nat) : Nat := elementsOf v.shape * item

/-- Sum of numbers. -/
def sumRat : List Rat → Rat
  | [] => 0
  | a :: as => a + sumRat as

/-- The sizes of all variables of a field in kilobytes, in order. -/
def sizesOf (f : Field) : List (String × Rat) := f.vars.map fun v => (v.name, (bytesOf v (v.itemsize.getD 8) : Rat) / 1024)

/-- A field as a dictionary holds it: with variables, of different names, all of them with dimensions. -/
def PlainFields (f : Field) : Prop := f.vars ≠ [] ∧ (f.vars.map (·.name)).Nodup ∧ ∀ v ∈ f.vars, v.shape ≠ []

end Ocgis.Spec
