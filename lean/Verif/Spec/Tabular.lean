import Verif.Model.Tabular
import Verif.Proofs.MapM

/-! Vocabulary for the statements about writing records. -/

namespace Ocgis.Spec
open Ocgis Ocgis.Tabular

/-- All ranks have finished. -/
def AllDone (j : Job) (w : World) : Prop := ∀ r, r < j.size → w.pc r = (program j).length

/-- The lines of all ranks, in rank order. -/
def allLines (j : Job) : List Row := (List.range j.size).flatMap j.lines

/-- What one pass must leave: a new file with the lines of all ranks in rank order, the old file with these lines added, or an
empty file for later passes to fill.  GeoJSON files are replaced by each rank in turn. -/
def afterPass (j : Job) (f : Option File) (m : Mode) : Option File :=
  match j.format, m, f with
  | .geojson, .template, f => f
  | .geojson, _, _ => some ⟨j.header, j.lines (j.size - 1)⟩
  | _, .template, _ => some ⟨j.header, []⟩
  | _, .normal, _ => some ⟨j.header, allLines j⟩
  | _, .fill, some g => some ⟨g.header, g.rows ++ allLines j⟩
  | _, .fill, none => some ⟨[], allLines j⟩

/-- What the passes one after the other must leave. -/
def expectedFile (j : Job) (f : Option File) : Option File := j.modes.foldl (afterPass j) f

/-- Column names as the format stores them. -/
def storedName (fmt : Format) (k : String) : String :=
  if fmt = .shapefile ∧ k.length > 10 then String.ofList (k.toList.take 10) else k

/-- A record as the format stores it. -/
def stored (fmt : Format) (rec : Record) : Record := rec.map fun e => (storedName fmt e.1, e.2)

end Ocgis.Spec
