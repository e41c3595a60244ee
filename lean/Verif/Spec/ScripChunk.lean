import Verif.Py
/-!
# Chunks of a grid
-/
namespace Ocgis.Spec

/-- The cell is in the chunk. -/
def InBand (chunks : List (List Bool)) (i cell : Nat) : Prop := ∃ m, chunks[i]? = some m ∧ m[cell]? = some true

/-- How many of the latitudes are different. -/
def distinctCount (l : List Rat) : Nat := l.eraseDups.length

end Ocgis.Spec
