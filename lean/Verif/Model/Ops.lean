import Verif.Py

/-!
# The operations object

`OcgOperations` (src/ocgis/ops/core.py): its arguments, assigning to them after construction, and the validation of their
combination, with the validation done by the drivers, the output formats and the calculations.
-/

namespace Ocgis.Ops
open Ocgis

/-- The output formats (`get_converter_map`, src/ocgis/conv/base.py:263-291). -/
inductive Fmt where
  | csv | csvShp | esmpy | geojson | metaJson | metaOcgis | nc | shp | ocgis
  deriving DecidableEq, Repr

/-- Coordinate systems, up to the equality of `CRS.__eq__` (src/ocgis/variable/crs.py:522-541, 872-880).  A system is a rotated
pole, one of the two geographic ones named in the validation, or another. -/
inductive Crs where
  | wgs84 | spherical | rotatedPole (n : Nat) | other (n : Nat)
  deriving DecidableEq, Repr

/-- `isinstance(crs, CFRotatedPole)`. -/
def Crs.isRotated : Crs → Bool
  | .rotatedPole _ => true
  | _ => false

/-- A dataset: a field or a request dataset, its coordinate system, the output formats its driver supports (`none` for the
string `'all'`; the vector driver supports two), whether it has a time region and the names its variables go by. -/
structure Dataset where
  isField : Bool := false
  crs : Option Crs := none
  formats : Option (List Fmt) := none
  timeRegion : Bool := false
  names : List String := []
  deriving DecidableEq, Repr

/-- What a calculation's class says about validation. -/
inductive Kind where
  /-- a univariate function without validation (src/ocgis/calc/base.py:342-348) -/
  | plain
  /-- a string expression of one variable -/
  | eval
  /-- a string expression of several variables -/
  | multiEval
  /-- a univariate set function (calc/base.py:762-767) -/
  | set
  /-- the moving window (calc/library/statistics.py:78-83) -/
  | movingWindow
  /-- the duration functions, the second of which has keyed output (calc/library/index/duration.py:91-95, 131-133) -/
  | duration (keyed : Bool)
  /-- a multivariate function with its required variables (calc/base.py:873-912) -/
  | multi (required : List String)
  deriving DecidableEq, Repr

/-- A calculation definition: function key, class and keyword arguments. -/
structure Calc where
  func : String
  kind : Kind
  kwds : List (String × String) := []
  deriving DecidableEq, Repr

/-- Is it a string expression (`_is_eval_function`, src/ocgis/ops/parms/definition.py:159-166)? -/
def Calc.isEval (c : Calc) : Bool := decide (c.kind = .eval ∨ c.kind = .multiEval)

/-- The arguments that take part in the validation.  `clip` is `spatial_operation == 'clip'`; `geom` is the number of selection
geometries; `selectUid` the number of identifiers in `geom_select_uid`; `regrid` says whether there is a regridding
destination; `grouping` is `calc_grouping` with `'all'` as the one-element list.  `evalFlag` is the `_is_eval_function`
attribute of the calculation parameter.  Arguments that take no part are left out. -/
structure Args where
  dataset : List Dataset
  clip : Bool := false
  aggregate : Bool := false
  sampleSize : Bool := false
  calcs : Option (List Calc) := none
  evalFlag : Bool := false
  grouping : Option (List String) := none
  calcRaw : Bool := false
  snippet : Bool := false
  format : Fmt := .ocgis
  aggSelection : Bool := false
  selectUid : Option Nat := none
  geom : Option Nat := none
  slice : Bool := false
  fileOnly : Bool := false
  outputCrs : Option Crs := none
  regrid : Bool := false
  deriving DecidableEq, Repr

/-- `ops.geom` is true in a test. -/
def Args.hasGeom (a : Args) : Bool := match a.geom with
  | none => false
  | some n => decide (0 < n)

/-- `len(ops.geom) > 1` with `ops.geom` true. -/
def Args.manyGeoms (a : Args) : Bool := match a.geom with
  | none => false
  | some n => decide (1 < n)

/-- `raise DefinitionValidationError` under a condition. -/
def refuse (b : Bool) : Option PyErr := if b then some .definitionValidation else none

/-- The first exception of a sequence of checks. -/
def firstError : List (Option PyErr) → Option PyErr
  | [] => none
  | some e :: _ => some e
  | none :: l => firstError l

/-- `AbstractDriver.validate_ops` (src/ocgis/driver/base.py:737-748) for one dataset; fields are skipped (core.py:331-334). -/
def driverCheck (f : Fmt) (d : Dataset) : Option PyErr :=
  if d.isField then none else
    match d.formats with
    | none => none
    | some l => refuse (!l.contains f)

/-- `issubclass(ref, AbstractMultivariateFunction)`. -/
def Kind.isMulti : Kind → Bool
  | .multi _ => true
  | _ => false

/-- `issubclass(ref, AbstractKeyedOutputFunction)`. -/
def Kind.isKeyed : Kind → Bool
  | .duration k => k
  | _ => false

/-- The number of multivariate calculations counted by src/ocgis/conv/nc.py:76-81. -/
def multiCount (cs : List Calc) : Nat :=
  (cs.filter fun c => c.kind.isMulti).length + (cs.filter fun c => decide (c.kind = .multiEval)).length

/-- `NcConverter.validate_ops` (conv/nc.py:57-110). -/
def ncCheck (a : Args) : Option PyErr :=
  firstError [
    refuse (decide (1 < a.dataset.length) && (match a.calcs with
      | none => true
      | some cs => decide (multiCount cs ≠ 1))),
    refuse (a.clip && !a.aggregate),
    (match a.calcs with
      | none => none
      | some cs => firstError [refuse a.calcRaw, refuse (cs.any fun c => c.kind.isKeyed)]),
    refuse (a.aggregate && !a.hasGeom),
    refuse (!a.aggregate && !a.aggSelection && a.manyGeoms)]

/-- `ESMPyConverter.validate_ops` (src/ocgis/conv/esmpy.py:28-45). -/
def esmpyCheck (a : Args) : Option PyErr :=
  firstError [
    refuse (decide (1 < a.dataset.length)),
    refuse a.clip,
    refuse (!a.aggSelection && (match a.selectUid with
      | none => false
      | some n => decide (1 < n))),
    refuse a.aggregate]

/-- `GeoJsonConverter.validate_ops` (src/ocgis/conv/fiona_.py:70-88).  The class of a calculation is looked up in a list of
two classes, so a subclass of the abstract multivariate function is not found. -/
def geojsonCheck (a : Args) : Option PyErr :=
  refuse (decide (1 < a.dataset.length) && (match a.calcs with
    | none => true
    | some cs => !cs.any fun c => decide (c.kind = .multiEval)))

/-- `MetaJSONConverter.validate_ops` (src/ocgis/conv/meta.py:46-57). -/
def metaJsonCheck (a : Args) : Option PyErr :=
  refuse (decide (1 < a.dataset.length) || a.dataset.any fun d => d.isField)

/-- The validation by the output format (core.py:336-338). -/
def formatCheck (a : Args) : Option PyErr :=
  match a.format with
  | .nc => ncCheck a
  | .esmpy => esmpyCheck a
  | .geojson => geojsonCheck a
  | .metaJson => metaJsonCheck a
  | _ => none

/-- No regridding in parallel or with clipping (core.py:340-347). -/
def regridCheck (vmSize : Nat) (a : Args) : Option PyErr :=
  if a.regrid then firstError [refuse (decide (1 < vmSize)), refuse a.clip] else none

/-- The unique coordinate systems (core.py:349-353). -/
def projections : List Dataset → List (Option Crs) → List (Option Crs)
  | [], acc => acc
  | d :: ds, acc => projections ds (if acc.any (fun c => decide (c = d.crs)) then acc else acc ++ [d.crs])

/-- Differing coordinate systems (core.py:355-360). -/
def crsCheck (a : Args) : Option PyErr :=
  refuse (decide (1 < (projections a.dataset []).length) && decide (a.format ≠ .ocgis) && decide (a.outputCrs = none))

/-- Is a rotated pole among the coordinate systems (core.py:364)? -/
def Args.anyRotated (a : Args) : Bool :=
  (projections a.dataset []).any fun c => match c with
    | none => false
    | some c => c.isRotated

/-- A rotated pole may be written to itself or the sphere (core.py:365-368). -/
def rotatedCheck (a : Args) : Option PyErr :=
  refuse (a.anyRotated && decide (a.outputCrs ≠ none) && decide (a.outputCrs ≠ some .spherical))

/-- The update of the output coordinate system (core.py:369-374). -/
def updateCrs (a : Args) : Args :=
  if a.anyRotated && (a.aggregate || a.clip) then { a with outputCrs := some .spherical } else a

/-- A geographic coordinate system as far as GeoJSON goes. -/
def geographic (c : Crs) : Bool := decide (c = .wgs84 ∨ c = .spherical)

/-- GeoJSON takes geographic coordinates only (core.py:376-385). -/
def geojsonCrsCheck (a : Args) : Option PyErr :=
  if a.format = .geojson then
    match a.outputCrs with
    | some c => refuse (!geographic c)
    | none => refuse ((projections a.dataset []).any fun c => match c with
        | none => false
        | some c => !geographic c)
  else none

/-- Snippets (core.py:387-394). -/
def snippetCheck (a : Args) : Option PyErr :=
  if a.snippet then
    firstError [refuse (decide (a.calcs ≠ none)), refuse (a.dataset.any fun d => !d.isField && d.timeRegion)]
  else none

/-- Slices (core.py:396-398): an assertion. -/
def sliceCheck (a : Args) : Option PyErr :=
  if a.slice && decide (a.geom ≠ none) then some .assertionError else none

/-- File only (core.py:400-405). -/
def fileOnlyCheck (a : Args) : Option PyErr :=
  if a.fileOnly then firstError [refuse (decide (a.format ≠ .nc)), refuse (decide (a.calcs = none))] else none

/-- The names of the variables of all datasets (src/ocgis/calc/base.py:892-901). -/
def allNames (a : Args) : List String := (a.dataset.map fun d => d.names).flatten

/-- `AbstractMultivariateFunction.validate` (calc/base.py:873-912): only the first definition with the function's key is looked
at. -/
def multiCheck (a : Args) (func : String) (required : List String) : Option PyErr :=
  if a.sampleSize then some .definitionValidation else
    match (a.calcs.getD []).find? fun c => decide (c.func = func) with
    | none => none
    | some c =>
      if (required.filter fun r => (c.kwds.map Prod.fst).contains r).length < 2 then some .definitionValidation
      else if required.any fun r => (c.kwds.lookup r).isNone then some .keyError
      else refuse (required.any fun r => !(allNames a).contains ((c.kwds.lookup r).getD ""))

/-- `c['ref'].validate(self)` (core.py:415-416). -/
def calcCheck (a : Args) (c : Calc) : Option PyErr :=
  match c.kind with
  | .plain => none
  | .eval => none
  | .multiEval => none
  | .set => refuse (decide (a.grouping = none))
  | .movingWindow => refuse (decide (a.grouping ≠ none))
  | .duration _ =>
    match a.grouping with
    | none => some .typeError
    | some g => refuse (!g.contains "year")
  | .multi required => multiCheck a c.func required

/-- The calculations (core.py:407-416). -/
def calcsCheck (a : Args) : Option PyErr :=
  match a.calcs with
  | none => none
  | some cs =>
    if a.evalFlag then refuse (decide (a.grouping ≠ none)) else firstError (cs.map (calcCheck a))

/-- `OcgOperations._validate_` (core.py:324-416): the object afterwards and the exception raised, if any. -/
def validate (vmSize : Nat) (a : Args) : Args × Option PyErr :=
  match firstError ((a.dataset.map (driverCheck a.format)) ++
      [formatCheck a, regridCheck vmSize a, crsCheck a, rotatedCheck a]) with
  | some e => (a, some e)
  | none =>
    let b := updateCrs a
    (b, firstError [geojsonCrsCheck b, snippetCheck b, sliceCheck b, fileOnlyCheck b, calcsCheck b])

/-- An assignment `ops.<argument> = value` with a value the argument's own checks accept. -/
inductive Assign where
  | dataset (v : List Dataset)
  | clip (v : Bool)
  | aggregate (v : Bool)
  | sampleSize (v : Bool)
  | calcs (v : Option (List Calc))
  | grouping (v : Option (List String))
  | calcRaw (v : Bool)
  | snippet (v : Bool)
  | format (v : Fmt)
  | aggSelection (v : Bool)
  | selectUid (v : Option Nat)
  | geom (v : Option Nat)
  | slice (v : Bool)
  | fileOnly (v : Bool)
  | outputCrs (v : Option Crs)
  | regrid (v : Bool)
  deriving DecidableEq, Repr

/-- The flag after parsing a list of calculations: each element overwrites it (definition.py:157-166, base.py:262). -/
def flagAfter (old : Bool) : List Calc → Bool
  | [] => old
  | c :: cs => flagAfter c.isEval cs

/-- Storing the value in its parameter (`attr.value = value`, core.py:209-211; src/ocgis/ops/parms/base.py:62-93). -/
def store (a : Args) : Assign → Args
  | .dataset v => { a with dataset := v }
  | .clip v => { a with clip := v }
  | .aggregate v => { a with aggregate := v }
  | .sampleSize v => { a with sampleSize := v }
  | .calcs none => { a with calcs := none }
  | .calcs (some cs) => { a with calcs := some cs, evalFlag := flagAfter a.evalFlag cs }
  | .grouping v => { a with grouping := v }
  | .calcRaw v => { a with calcRaw := v }
  | .snippet v => { a with snippet := v }
  | .format v => { a with format := v }
  | .aggSelection v => { a with aggSelection := v }
  | .selectUid v => { a with selectUid := v }
  | .geom v => { a with geom := v }
  | .slice v => { a with slice := v }
  | .fileOnly v => { a with fileOnly := v }
  | .outputCrs v => { a with outputCrs := v }
  | .regrid v => { a with regrid := v }

/-- `ops.<argument> = value` (core.py:205-216): store, then validate.  The exception leaves the stored value where it is. -/
def assign (vmSize : Nat) (a : Args) (s : Assign) : Args × Option PyErr := validate vmSize (store a s)

/-- `OcgOperations(dataset=..., **kwargs)` (core.py:120-185): every argument is stored, then the combination is validated. -/
def construct (vmSize : Nat) (ds : List Dataset) (kwargs : List Assign) : Args × Option PyErr :=
  validate vmSize (kwargs.foldl store { dataset := ds })

/-- A program that makes a sequence of assignments, catching what is raised. -/
def assignAll (vmSize : Nat) (a : Args) (ss : List Assign) : Args × List (Option PyErr) :=
  ss.foldl (fun st s => let r := assign vmSize st.1 s; (r.1, st.2 ++ [r.2])) (a, [])

/-! ### Attributes -/

/-- What an attribute of the object holds: a parameter object with its value or any other value. -/
inductive Slot (R V : Type) where
  | parameter (v : V)
  | raw (r : R)
  deriving DecidableEq, Repr

/-- The attributes that exist. -/
abbrev Attrs (R V : Type) := List (String × Slot R V)

/-- Setting an attribute in the object's dictionary. -/
def Attrs.put {R V : Type} (o : Attrs R V) (name : String) (s : Slot R V) : Attrs R V :=
  (name, s) :: o.filter fun p => decide (p.1 ≠ name)

/-- `OcgOperations.__setattr__` with a value that is not a parameter object (core.py:205-213), before the validation of the
combination: `set name value` is the parameter's own parsing and checking.  An attribute that is missing, that has no `value`
property, or whose parsing raises `AttributeError`, is replaced by the value itself. -/
def setAttr {R V : Type} (parse : String → R → Res V) (o : Attrs R V) (name : String) (r : R) :
    Attrs R V × Option PyErr :=
  match o.lookup name with
  | none => (o.put name (.raw r), none)
  | some (.raw _) => (o.put name (.raw r), none)
  | some (.parameter _) =>
    match parse name r with
    | .ok v => (o.put name (.parameter v), none)
    | .error e => if e = .attributeError then (o.put name (.raw r), none) else (o, some e)

/-- `OcgOperations.__getattribute__` (core.py:197-203): a parameter's value or the attribute itself. -/
def getAttr {R V : Type} (o : Attrs R V) (name : String) : Res (Slot R V) :=
  match o.lookup name with
  | none => .error .attributeError
  | some s => .ok s

/-- The value given for `regrid_options`: `None` or a dictionary. -/
abbrev RegridRaw := Option (List (String × String))

/-- `RegridOptions._parse_` (definition.py:1077-1096) for dictionaries with string values: only known options are allowed and
missing ones are filled in.  `None` has no `keys`. -/
def regridParse (r : RegridRaw) : Res (List (String × String)) :=
  match r with
  | none => .error .attributeError
  | some d =>
    if d.any fun p => !["regrid_method", "value_mask", "split"].contains p.1 then .error .definitionValidation
    else
      let d := if (d.lookup "regrid_method").isNone then d ++ [("regrid_method", "auto")] else d
      .ok (if (d.lookup "value_mask").isNone then d ++ [("value_mask", "None")] else d)

/-- The names accepted for `output_format` when ESMF is present (`OutputFormat.valid`, definition.py:956). -/
def formatNames : List String :=
  ["shp", "csv", "csv-shp", "ocgis", "geojson", "nc", "meta-json", "meta-ocgis", "esmpy"]

/-- Setting `output_format` by assignment (base.py:62-93, 236-239): the string is in lower case already. -/
def formatSet (s : String) : Res String := if formatNames.contains s then .ok s else .error .definitionValidation

/-- `OutputFormat.__init__` (definition.py:958-972): the old names are replaced first. -/
def formatInit (s : String) : Res String :=
  formatSet (if s = "csv+" then "csv-shp" else if s = "numpy" then "ocgis" else s)

/-- The value given for `slice`: a dictionary by dimension or a list with an entry for each of the five dimensions. -/
inductive SliceRaw where
  | dict (d : List (String × Nat × Nat))
  | list (l : List (Nat × Nat))
  deriving DecidableEq, Repr

/-- The dimension names of the five entries (definition.py:1159-1167). -/
def sliceNames : List String := ["realization", "time", "level", "y", "x"]

/-- Setting `slice` by assignment (definition.py:1159-1188, base.py:254-297): a dictionary is iterated over, giving its keys,
and a string cannot be converted to a slice.  An empty dictionary has the wrong length. -/
def sliceSet : SliceRaw → Res (List (String × Nat × Nat))
  | .dict _ => .error .definitionValidation
  | .list l => if l.length = 5 then .ok (sliceNames.zip l) else .error .definitionValidation

/-- `Slice.__init__` (definition.py:1144-1157): a dictionary is stored as it is. -/
def sliceInit : SliceRaw → Res (List (String × Nat × Nat))
  | .dict d => .ok d
  | .list l => sliceSet (.list l)

end Ocgis.Ops
