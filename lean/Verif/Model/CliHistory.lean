import Verif.Py
/-!
# The command in the history of a weight file

Models `create_history_string` (ocli.py:248-266) for the parameters of `chunked-rwg` (ocli.py:39-100), and, as far as options go, how the command line is
taken apart by `click`: a known option takes its value, a flag none; anything else is refused.  A command line is a list of words: blanks in
values are left out, and so are the checks of values, required options, and short names of options.  Numbers are written as they were given.
-/
namespace Ocgis.CliHistory

/-- An option: a flag with its two forms and its default, or an option with a value and its default. -/
inductive Kind where
  | flag (on off : String) (default : Bool)
  | text (option : String) (default : Option String)
  deriving DecidableEq

/-- A parameter of the command: its name in the function and its kind. -/
structure Parm where
  name : String
  kind : Kind
  deriving DecidableEq

/-- The parameters in the order of the function (ocli.py:39-100). -/
def parms : List Parm := [
  ⟨"source", .text "--source" none⟩,
  ⟨"destination", .text "--destination" none⟩,
  ⟨"weight", .text "--weight" none⟩,
  ⟨"nchunks_dst", .text "--nchunks_dst" none⟩,
  ⟨"merge", .flag "--merge" "--no_merge" true⟩,
  ⟨"esmf_src_type", .text "--esmf_src_type" (some "GRIDSPEC")⟩,
  ⟨"esmf_dst_type", .text "--esmf_dst_type" (some "GRIDSPEC")⟩,
  ⟨"genweights", .flag "--genweights" "--no_genweights" true⟩,
  ⟨"esmf_regrid_method", .text "--esmf_regrid_method" (some "CONSERVE")⟩,
  ⟨"spatial_subset", .flag "--spatial_subset" "--no_spatial_subset" false⟩,
  ⟨"src_resolution", .text "--src_resolution" none⟩,
  ⟨"dst_resolution", .text "--dst_resolution" none⟩,
  ⟨"buffer_distance", .text "--buffer_distance" none⟩,
  ⟨"wd", .text "--wd" none⟩,
  ⟨"persist", .flag "--persist" "--no_persist" false⟩,
  ⟨"eager", .flag "--eager" "--not_eager" true⟩,
  ⟨"ignore_degenerate", .flag "--ignore_degenerate" "--no_ignore_degenerate" false⟩,
  ⟨"data_variables", .text "--data_variables" none⟩,
  ⟨"spatial_subset_path", .text "--spatial_subset_path" none⟩,
  ⟨"verbose", .flag "--verbose" "--not_verbose" false⟩,
  ⟨"loglvl", .text "--loglvl" (some "INFO")⟩,
  ⟨"weightfilemode", .text "--weightfilemode" (some "BASIC")⟩,
  ⟨"large_file", .flag "--64bit_offset" "--no_64bit_offset" false⟩]

/-- What the command is run with. -/
structure Settings where
  flag : String → Bool
  text : String → Option String

/-- The turn of the loop for one parameter (ocli.py:250-256): `None` is left out, and so is a flag that is set. -/
def historyParm (s : Settings) (p : Parm) : Option (String × String) :=
  match p.kind with
  | .flag .. => if s.flag p.name then none else some ("--no_" ++ p.name, "False")
  | .text .. => (s.text p.name).map fun v => ("--" ++ p.name, v)

/-- `history_parms` (ocli.py:249-256).  The keys are different, as the names of the parameters are. -/
def historyParms (s : Settings) : List (String × String) := parms.filterMap (historyParm s)

/-- The words of the command in the history after `ocli chunked-rwg` (ocli.py:264-265). -/
def history (s : Settings) : List String := (historyParms s).flatMap fun x => [x.1, x.2]

/-- What a word means to the command line. -/
inductive Word where
  | setFlag (name : String) (value : Bool)
  | takesValue (name : String)

/-- The word as one of the forms of a parameter. -/
def wordOf (w : String) (p : Parm) : Option Word :=
  match p.kind with
  | .flag on off _ => if w = on then some (.setFlag p.name true) else if w = off then some (.setFlag p.name false) else none
  | .text o _ => if w = o then some (.takesValue p.name) else none

/-- The option a word is. -/
def recognise (w : String) : Option Word := parms.findSome? (wordOf w)

/-- The defaults. -/
def defaults : Settings where
  flag n := parms.any fun p => p.name = n && match p.kind with
    | .flag _ _ d => d
    | .text .. => false
  text n := (parms.find? fun p => p.name = n).bind fun p => match p.kind with
    | .text _ d => d
    | .flag .. => none

/-- The settings with another flag. -/
def withFlag (s : Settings) (n : String) (b : Bool) : Settings := { s with flag := fun m => if m = n then b else s.flag m }

/-- The settings with another value. -/
def withText (s : Settings) (n v : String) : Settings := { s with text := fun m => if m = n then some v else s.text m }

/-- A command line taken apart, from the left. -/
def parse : List String → Settings → Res Settings
  | [], s => .ok s
  | w :: l, s =>
    match recognise w with
    | none => .error .valueError
    | some (.setFlag n b) => parse l (withFlag s n b)
    | some (.takesValue n) =>
      match l with
      | [] => .error .valueError
      | v :: l => parse l (withText s n v)

end Ocgis.CliHistory
