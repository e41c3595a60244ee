import Verif.Py
/-!
# Request datasets: variables, names, units, drivers and files

`RequestDataset` (driver/request/core.py:142-474), `get_autodiscovered_driver`, `get_driver` and `get_uri`
(driver/request/core.py:570-648), `get_driver_class` (driver/registry.py:30-58), and the variables and tags of the field that is made
(driver/base.py:313-325, 346-385).  Dimension maps, coordinate systems and subsets are left out.
-/
namespace Ocgis.RequestMeta
open Ocgis

/-- What can go wrong. -/
inductive Err where
  | variableNotFound | noDataVariables | requestValidation | valueError | attributeError | indexError
  deriving DecidableEq, Repr

/-- The metadata of a variable: its name in the field, its units and the units it is conformed to. -/
structure VMeta where
  name : String
  units : Option String := none
  conform : Option String := none
  deriving DecidableEq, Repr

/-- The metadata of the variables, by their names in the file. -/
abbrev Meta := List (String × VMeta)

/-- The arguments. -/
structure Req where
  wanted : Option (List String) := none
  rename : Option (List String) := none
  units : Option (List String) := none
  conform : Option (List String) := none
  fieldName : Option String := none
  deriving DecidableEq, Repr

/-- The property `variable` (core.py:459-474): the variables asked for, or those found; there must be one.  `found` are the data variables
the driver finds. -/
def variablesOf (req : Req) (found : List String) (m : Meta) : Except Err (List String) :=
  match req.wanted with
  | none => if found = [] then .error .noDataVariables else .ok found
  | some l =>
    if l.all fun v => (m.lookup v).isSome then (if l = [] then .error .noDataVariables else .ok l) else .error .variableNotFound

/-- Change the metadata of a variable. -/
def change (f : VMeta → VMeta) (k : String) (m : Meta) : Meta := m.map fun kv => if kv.1 = k then (kv.1, f kv.2) else kv

/-- Go through two sequences together (`zip`): the longer is cut off. -/
def changeAll (f : String → VMeta → VMeta) : List String → List String → Meta → Meta
  | k :: ks, v :: vs, m => changeAll f ks vs (change (f v) k m)
  | _, _, m => m

/-- The property `metadata` (core.py:364-371), `rename_variable_map` (core.py:390-394): names are changed only if the metadata come from
the file. -/
def loadMeta (given : Bool) (req : Req) (found : List String) (m : Meta) : Except Err Meta :=
  if given then .ok m
  else
    match req.rename with
    | none => .ok m
    | some names =>
      match variablesOf req found m with
      | .error e => .error e
      | .ok vs => if names = [] then .error .indexError else .ok (changeAll (fun n x => { x with name := n }) vs names m)

/-- The property `units` (core.py:429-434). -/
def unitsOf (vs : List String) (m : Meta) : List (Option String) := vs.map fun v => (m.lookup v).bind VMeta.units

/-- The setter of `units` (core.py:437-448).  Under Python 3 the error for units that do not exist has no message, which is another
error (core.py:557). -/
def setUnits (valid : String → Bool) (req : Req) (found : List String) (m : Meta) : Except Err Meta :=
  match req.units with
  | none => .ok m
  | some us =>
    match variablesOf req found m with
    | .error e => .error e
    | .ok vs =>
      if us.length ≠ vs.length then .error .requestValidation
      else if us.all valid then .ok (changeAll (fun u x => { x with units := some u }) vs us m)
      else .error .attributeError

/-- `validate_unit_equivalence` (core.py:560-567). -/
def equivalent (equiv : Option String → String → Bool) : List (Option String) → List String → Bool
  | s :: ss, d :: ds => equiv s d && equivalent equiv ss ds
  | _, _ => true

/-- The setter of `conform_units_to` (core.py:265-279). -/
def setConform (valid : String → Bool) (equiv : Option String → String → Bool) (req : Req) (found : List String) (m : Meta) :
    Except Err Meta :=
  match req.conform with
  | none => .ok m
  | some us =>
    match variablesOf req found m with
    | .error e => .error e
    | .ok vs =>
      if us.length ≠ vs.length then .error .requestValidation
      else if us.all valid then
        if equivalent equiv (unitsOf vs m) us then .ok (changeAll (fun u x => { x with conform := some u }) vs us m)
        else .error .requestValidation
      else .error .attributeError

/-- `RequestDataset.__init__` (core.py:142-236) as far as the metadata are concerned. -/
def request (valid : String → Bool) (equiv : Option String → String → Bool) (given : Bool) (req : Req) (found : List String) (m : Meta) :
    Except Err Meta :=
  match loadMeta given req found m with
  | .error e => .error e
  | .ok m₁ =>
    match setUnits valid req found m₁ with
    | .error e => .error e
    | .ok m₂ => setConform valid equiv req found m₂

/-- The property `rename_variable` (core.py:382-387): the new names if there are any. -/
def newNames (req : Req) (found : List String) (m : Meta) : Except Err (List String) :=
  match req.rename with
  | none => variablesOf req found m
  | some l => if l = [] then .error .indexError else .ok l

/-- The property `field_name` (core.py:333-347). -/
def fieldName (req : Req) (found : List String) (m : Meta) : Except Err String :=
  match req.fieldName with
  | some n => .ok n
  | none =>
    match newNames req found m with
    | .error e => .error e
    | .ok [n] => .ok n
    | .ok _ => .ok "ocgis_field"

/-- Set a key of a dictionary. -/
def put (d : List (String × String)) (k v : String) : List (String × String) :=
  match d with
  | [] => [(k, v)]
  | (k', v') :: l => if k' = k then (k, v) :: l else (k', v') :: put l k v

/-- The variables of the field (base.py:352-385, variable/base.py:296): under its name, the variable of the file that it is read from.  A
variable with the same name is replaced. -/
def fieldVars : Meta → List (String × String) → List (String × String)
  | [], d => d
  | (k, x) :: m, d => fieldVars m (put d x.name k)

/-- Names are appended to the tag one after another; none may be there already (variable/base.py:1879-1899). -/
def appendTags : List String → List String → Except Err (List String)
  | [], tags => .ok tags
  | n :: ns, tags => if n ∈ tags then .error .valueError else appendTags ns (tags ++ [n])

/-- The field: its variables and the names of its data variables (base.py:313-324). -/
def createField (req : Req) (found : List String) (m : Meta) : Except Err (List (String × String) × List String) :=
  match newNames req found m with
  | .error .noDataVariables => .ok (fieldVars m [], [])
  | .error e => .error e
  | .ok names =>
    match appendTags names [] with
    | .error e => .error e
    | .ok tags => .ok (fieldVars m [], tags)

/-- The drivers, in the order of the registry (registry.py:18-27). -/
inductive Driver where
  | csv | netcdf | netcdfCf | vector | ugrid | esmf | scrip
  deriving DecidableEq, Repr

/-- The registry. -/
def registry : List Driver := [.csv, .netcdf, .netcdfCf, .vector, .ugrid, .esmf, .scrip]

/-- The keys of the drivers (constants.py:389-397). -/
def Driver.key : Driver → String
  | .csv => "csv" | .netcdf => "netcdf" | .netcdfCf => "netcdf-cf" | .vector => "vector" | .ugrid => "netcdf-ugrid"
  | .esmf => "netcdf-esmf-unstruct" | .scrip => "netcdf-scrip"

/-- `re.match('.*' + s, u)` for a text without line breaks: `s` is somewhere in `u`. -/
def isInside (s : List Char) : List Char → Bool
  | [] => s.isEmpty
  | c :: u => s.isPrefixOf (c :: u) || isInside s u

/-- How many of the patterns of a driver match (csv_.py:15, nc.py:39, vector.py:29). -/
def Driver.hits (u : List Char) : Driver → Nat
  | .csv => if isInside ".csv".toList u then 1 else 0
  | .vector => if isInside ".shp".toList u then 1 else 0
  | _ => (if isInside ".nc".toList u then 1 else 0) + (if "http".toList.isPrefixOf u then 1 else 0)

/-- The drivers that match, once for each address and pattern (core.py:579-584). -/
def possible (uris : List (List Char)) : List Driver :=
  uris.flatMap fun u => registry.flatMap fun d => List.replicate (d.hits u) d

/-- `get_autodiscovered_driver` (core.py:570-605). -/
def autodiscover (uris : List (List Char)) : Except Err Driver :=
  match possible uris with
  | [] => .error .requestValidation
  | [d] => .ok d
  | l => if Driver.netcdfCf ∈ l then .ok .netcdfCf else .error .requestValidation

/-- `get_driver` with a key (core.py:608-609, registry.py:30-58): unknown keys give the default driver. -/
def getDriver (key : String) : Driver :=
  match (registry.filter fun d => d.key = key).getLast? with
  | some d => d
  | none => .netcdfCf

/-- Looking for a file in the directories (core.py:626-634): only the inner loop is left when it is found. -/
def locateIn (locate : String → List String) : List String → Option String → Option String
  | [], r => r
  | d :: ds, r =>
    match locate d with
    | [] => locateIn locate ds r
    | p :: _ => locateIn locate ds (some p)

/-- `get_uri` for one address (core.py:612-648).  `known`: the path exists or is remote; `locate`: the paths below a directory with that
name, which all exist. -/
def getUri (known : Bool) (dirs : List String) (locate : String → List String) (u : String) : Except Err String :=
  if known then .ok u
  else
    match locateIn locate dirs none with
    | some p => .ok p
    | none => .error .valueError

end Ocgis.RequestMeta
