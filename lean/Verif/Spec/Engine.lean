import Verif.Model.Engine

/-! Vocabulary for the statements about the operations engine. -/

namespace Ocgis.Spec
open Ocgis Ocgis.Engine

/-- The part of a list of results before the first exception, and the exception. -/
def untilError {α : Type} : List (Res α) → List α × Option PyErr
  | [] => ([], none)
  | .error e :: _ => ([], some e)
  | .ok a :: rest => (a :: (untilError rest).1, (untilError rest).2)

/-- The cells of a field a geometry selects; all of them without a geometry. -/
def selected (f : Field) : Option Geometry → List Nat
  | none => f.cells
  | some g => f.cells.filter g.covers

/-- What operations promise for one field and one geometry, on its own. -/
def promised (o : Ops) (f : Field) (g : Option Geometry) : Res Output :=
  if selected f g = [] then .error .extentError
  else .ok (g.map (fun g => g.ugid),
    { crs := o.outputCrs.getD f.crs, cells := selected f g, regridSource := f.regridSource,
      regridded := o.regrid && f.regridSource, aggregated := o.aggregate, calculated := o.hasCalc })

/-- A field as it comes from a dataset. -/
def Fresh (f : Field) : Prop := f.cells ≠ [] ∧ f.regridded = false ∧ f.aggregated = false ∧ f.calculated = false

/-- The passes of the loop: one for each geometry, a single one without geometries. -/
def passes : Option (List Geometry) → List (Option Geometry)
  | none => [none]
  | some l => l.map some

/-- What operations promise for a dataset. -/
def promisedDataset (o : Ops) (gs : Option (List Geometry)) : Dataset → List (Res Output)
  | .error .emptySubset => [.error .extentError]
  | .error e => [.error e]
  | .ok f => (passes gs).map (promised o f)

/-- The operations the promise is kept for: no empty returns, no base sizes, no calculations on raw values that leave the
aggregation out while a coordinate system is asked for or was changed. -/
def PromiseKept (o : Ops) (f : Field) : Prop :=
  o.allowEmpty = false ∧ o.baseSize = false ∧
    (o.hasCalc = true → o.raw = true → o.aggregate = true ∨ (o.outputCrs = none ∧ ∀ p, f.crs ≠ .rotated p))

/-- For a rotated pole: an output system is asked for, or there is one pass only. -/
def RotatedOnce (o : Ops) (gs : Option (List Geometry)) (f : Field) : Prop :=
  ∀ p, f.crs = .rotated p → o.outputCrs ≠ none ∨ (passes gs).length ≤ 1

end Ocgis.Spec
