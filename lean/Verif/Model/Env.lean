import Verif.Model.Text

/-!
# The environment object

`src/ocgis/environment.py:54-275`.
-/

namespace Ocgis.Env
open Ocgis Ocgis.Text

/-- Values of parameters.  `obj` stands for any other object (a type, a coordinate system), named. -/
inductive Val where
  | none
  | bool (b : Bool)
  | int (i : Int)
  | num (q : Rat)
  | str (s : Text)
  | obj (name : String)
  deriving DecidableEq

/-- What decides how an operating system variable is formatted (environment.py:55-97): no formatter, the boolean
formatter, `float`, `str`, or an `EnvParmImport` with its module names. -/
inductive Kind where
  | plain
  | bool
  | float
  | str
  | module (names : List String)
  deriving DecidableEq

/-- environment.py:205-212, an `EnvParm` as declared: its name, default and formatter. -/
structure Decl where
  name : String
  kind : Kind
  default : Val

/-- environment.py:205-212: an `EnvParm` with the stored value, `'use_env'` at first. -/
structure Parm extends Decl where
  stored : Val

/-- What the environment object looks at outside of itself: the operating system variables, the working
directory, the home directory, which modules can be imported, the results of the two probes of environment.py:
99-107, and Python's `float` on strings (`none` for `ValueError`; not a number and infinities are left out). -/
structure World where
  os : String → Option Text
  cwd : Text
  conf : Text
  importable : String → Bool
  netcdftime : Bool
  parallelNetcdf : Bool
  parseFloat : Text → Option Rat

/-- The marker for "not set" (environment.py:212). -/
def useEnv : Val := .str "use_env".toList

/-- environment.py:219-231 with 256-257, the formatting of an operating system variable. -/
def format (w : World) : Kind → Text → Res Val
  | .plain, s => .ok (.str s)
  | .bool, s => (formatBool s).map .bool
  | .float, s => match w.parseFloat s with | some q => .ok (.num q) | none => .error .valueError
  | .str, s => .ok (.str s)
  | .module _, s => (formatBool s).map .bool

/-- environment.py:220-222 and 251-255, 266-275, without an operating system variable: the default, or whether one of the
modules can be imported. -/
def fallback (w : World) (d : Decl) : Val :=
  match d.kind, d.default with
  | .module ms, .none => .bool (ms.any w.importable)
  | _, v => v

/-- environment.py:217-232 and 247-260, the property `value`. -/
def Parm.value (w : World) (p : Parm) : Res Val :=
  if p.stored = useEnv then
    match w.os ("OCGIS_" ++ p.name) with
    | none => .ok (fallback w p.toDecl)
    | some s => format w p.kind s
  else .ok p.stored

/-- environment.py:56-97 in order: the declared parameters.  The working directory is looked up at that moment. -/
def declarations (w : World) : List Decl :=
  [⟨"OVERWRITE", .bool, .bool false⟩, ⟨"DIR_OUTPUT", .plain, .str w.cwd⟩, ⟨"DIR_GEOMCABINET", .plain, .none⟩,
   ⟨"DIR_SHPCABINET", .plain, .none⟩, ⟨"DIR_DATA", .plain, .none⟩, ⟨"DIR_TEST_DATA", .plain, .none⟩,
   ⟨"MELTED", .bool, .none⟩, ⟨"MODE", .plain, .str "raw".toList⟩, ⟨"PREFIX", .plain, .str "ocgis_output".toList⟩,
   ⟨"FILL_VALUE", .float, .num 100000000000000000000⟩, ⟨"VERBOSE", .bool, .bool false⟩,
   ⟨"OPTIMIZE_FOR_CALC", .bool, .bool false⟩, ⟨"ENABLE_FILE_LOGGING", .bool, .bool false⟩,
   ⟨"DEBUG", .bool, .bool false⟩, ⟨"DIR_BIN", .plain, .none⟩,
   ⟨"USE_SPATIAL_INDEX", .module ["rtree"], .none⟩, ⟨"USE_CFUNITS", .module ["cf_units", "cfunits"], .none⟩,
   ⟨"USE_ESMF", .module ["ESMF"], .none⟩, ⟨"USE_ICCLIM", .module ["icclim"], .none⟩,
   ⟨"USE_MPI4PY", .module ["mpi4py"], .none⟩, ⟨"USE_MEMORY_OPTIMIZATIONS", .bool, .bool false⟩,
   ⟨"USE_NETCDF4_MPI", .bool, .none⟩, ⟨"CONF_PATH", .plain, .str w.conf⟩,
   ⟨"SUPPRESS_WARNINGS", .bool, .bool true⟩, ⟨"DEFAULT_GEOM_UID", .str, .str "UGID".toList⟩,
   ⟨"NETCDF_FILE_FORMAT", .str, .str "NETCDF4".toList⟩, ⟨"NP_INT", .plain, .obj "int"⟩,
   ⟨"NP_FLOAT", .plain, .obj "float"⟩, ⟨"ADD_OPS_MPI_BARRIER", .bool, .bool true⟩,
   ⟨"PREFER_NETCDFTIME", .bool, .none⟩, ⟨"CLOBBER_UNITS_ON_BOUNDS", .bool, .bool true⟩,
   ⟨"SET_GRID_AXIS_ATTRS", .bool, .bool true⟩, ⟨"COORDSYS_ACTUAL", .plain, .none⟩,
   ⟨"STRING_MAX_LENGTH", .plain, .int 255⟩]

/-- environment.py:137-141: `DEFAULT_COORDSYS` is a property that makes a new parameter at every access. -/
def coordsys : Parm := { name := "DEFAULT_COORDSYS", kind := .plain, default := .obj "CFSpherical", stored := useEnv }

/-- The environment object: its parameters.  (`ops` and the names that start with an underscore are ordinary
attributes and are left out.) -/
abbrev State := List Parm

/-- environment.py:120-126, `env.NAME`. -/
def read (w : World) (st : State) (name : String) : Res Val :=
  if name = "DEFAULT_COORDSYS" then coordsys.value w
  else
    match st.find? fun p => p.name == name with
    | some p => p.value w
    | none => .error .attributeError

/-- The state with another stored value for a parameter. -/
def store (st : State) (name : String) (v : Val) : State :=
  st.map fun p => if p.name = name then { p with stored := v } else p

/-- environment.py:128-135, `env.NAME = value` for a name of a parameter: the result and the state afterwards. -/
def assign (st : State) (name : String) (v : Val) : Res Unit × State :=
  if name = "DEFAULT_COORDSYS" then (.ok (), st)
  else if st.any fun p => p.name == name then (.ok (), store st name v)
  else (.error .attributeError, st)

/-- environment.py:56-97, all parameters unset. -/
def fresh (w : World) : State := (declarations w).map fun d => { d with stored := useEnv }

/-- environment.py:99-100 and 102-107: a parameter that reads as `None` is set to what was probed. -/
def probe (w : World) (name : String) (found : Bool) (st : State) : Res Unit × State :=
  match read w st name with
  | .error e => (.error e, st)
  | .ok .none => assign st name (.bool found)
  | .ok _ => (.ok (), st)

/-- environment.py:55-110 and 175-180: `__init__`, which `reset` calls again. -/
def init (w : World) : Res Unit × State :=
  match probe w "PREFER_NETCDFTIME" w.netcdftime (fresh w) with
  | (.error e, st) => (.error e, st)
  | (.ok _, st) => probe w "USE_NETCDF4_MPI" w.parallelNetcdf st

/-- What happens to an environment: assignments, resets, and changes of the operating system's variables or of
the working directory. -/
inductive Event where
  | set (name : String) (v : Val)
  | reset
  | os (name : String) (v : Option Text)
  | chdir (dir : Text)

/-- One event; an assignment or reset that raises leaves the state it has reached. -/
def step : World × State → Event → World × State
  | (w, st), .set n v => (w, (assign st n v).2)
  | (w, _), .reset => (w, (init w).2)
  | (w, st), .os n v => ({ w with os := fun m => if m = n then v else w.os m }, st)
  | (w, st), .chdir d => ({ w with cwd := d }, st)

/-- A history of events. -/
def run (x : World × State) (es : List Event) : World × State := es.foldl step x

end Ocgis.Env
