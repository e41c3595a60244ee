import Verif.Model.CsvShp
/-!
# What a table and its shapefile should be
-/
namespace Ocgis.Spec
open CsvShp

/-- A field as it should be: every record belongs to one of its geometries, every geometry has an identifier under the name `GID`, all
different. -/
def WellKept (f : Fld) : Prop :=
  (∀ r ∈ f.records, r < f.geoms.length) ∧ ∀ name ids, f.ids = some (name, ids) → name = "GID" ∧ ids.length = f.geoms.length ∧ ids.Nodup

/-- The record of the table belongs to this geometry: it is from a field whose record it is. -/
def BelongsTo (fields : List Fld) (k : Key) (g : Nat) : Prop :=
  ∃ f ∈ fields, ∃ r ∈ f.records, ∃ id, k = { did := f.uid, ugid := f.ugid, gid := some id } ∧ f.geoms[r]? = some g ∧
    (f.ids = none → id = 1 + (r : Int)) ∧ (∀ name ids, f.ids = some (name, ids) → ids[r]? = some id)

end Ocgis.Spec
