import Verif.Model.Env
import Verif.Spec.Text

/-! What a parameter should read as. -/

namespace Ocgis.Spec
open Ocgis Ocgis.Text Ocgis.Env

/-- What an unset parameter should read as: the operating system variable `OCGIS_<NAME>` if there is one, in the
parameter's format or refused; otherwise the default, or, for the parameters that tell whether a library is
there, whether it is. -/
inductive UnsetReads (w : World) (d : Decl) : Res Val → Prop
  | default : w.os ("OCGIS_" ++ d.name) = none → (∀ ms, d.kind ≠ .module ms) → UnsetReads w d (.ok d.default)
  | library (ms b) : w.os ("OCGIS_" ++ d.name) = none → d.kind = .module ms → d.default = .none →
      (b = true ↔ ∃ m ∈ ms, w.importable m = true) → UnsetReads w d (.ok (.bool b))
  | text (s) : w.os ("OCGIS_" ++ d.name) = some s → d.kind = .plain ∨ d.kind = .str → UnsetReads w d (.ok (.str s))
  | flag (s b) : w.os ("OCGIS_" ++ d.name) = some s → (d.kind = .bool ∨ ∃ ms, d.kind = .module ms) →
      BoolText s b → UnsetReads w d (.ok (.bool b))
  | notFlag (s) : w.os ("OCGIS_" ++ d.name) = some s → (d.kind = .bool ∨ ∃ ms, d.kind = .module ms) →
      (¬ ∃ b, BoolText s b) → UnsetReads w d (.error .valueError)
  | number (s q) : w.os ("OCGIS_" ++ d.name) = some s → d.kind = .float → w.parseFloat s = some q →
      UnsetReads w d (.ok (.num q))
  | notNumber (s) : w.os ("OCGIS_" ++ d.name) = some s → d.kind = .float → w.parseFloat s = none →
      UnsetReads w d (.error .valueError)

/-- The two parameters that get a value at every reset. -/
def probed : List String := ["PREFER_NETCDFTIME", "USE_NETCDF4_MPI"]

/-- An event that sets a parameter or resets all. -/
def Touches (name : String) : Event → Prop
  | .set n _ => n = name
  | .reset => True
  | _ => False

/-- The environment after import and some history. -/
def history (w : World) (es : List Event) : World × State := run (w, (init w).2) es

/-- The names of the parameters. -/
def names : List String := ["OVERWRITE", "DIR_OUTPUT", "DIR_GEOMCABINET", "DIR_SHPCABINET", "DIR_DATA",
  "DIR_TEST_DATA", "MELTED", "MODE", "PREFIX", "FILL_VALUE", "VERBOSE", "OPTIMIZE_FOR_CALC",
  "ENABLE_FILE_LOGGING", "DEBUG", "DIR_BIN", "USE_SPATIAL_INDEX", "USE_CFUNITS", "USE_ESMF", "USE_ICCLIM",
  "USE_MPI4PY", "USE_MEMORY_OPTIMIZATIONS", "USE_NETCDF4_MPI", "CONF_PATH", "SUPPRESS_WARNINGS",
  "DEFAULT_GEOM_UID", "NETCDF_FILE_FORMAT", "NP_INT", "NP_FLOAT", "ADD_OPS_MPI_BARRIER", "PREFER_NETCDFTIME",
  "CLOBBER_UNITS_ON_BOUNDS", "SET_GRID_AXIS_ATTRS", "COORDSYS_ACTUAL", "STRING_MAX_LENGTH"]

end Ocgis.Spec
