import Verif.Model.Text

/-!
# Parameters from strings, and queries

`src/ocgis/ops/parms/base.py`, the string side of `src/ocgis/ops/parms/definition.py`, and `src/ocgis/ops/query.py`.
-/

namespace Ocgis.Parms
open Ocgis Ocgis.Text

/-- What the parameters look at outside of themselves: which paths exist (definition.py:588-590), which units the units
library reads (427-434), what `strptime` makes of a text with either of the two formats (1281-1293), the order of
dates, whether a coordinate system can be made from a code (949-950), what the geometry and calculation parameters
make of a text (724-781, 246-272), and whether a request dataset can be made from its arguments (538-541). -/
structure World (D : Type) where
  pathExists : Text → Bool
  units : Text → Bool
  strptime : Text → Option D
  le : D → D → Bool
  epsg : Int → Res Unit
  outside : String → Text → Res Unit
  openDataset : List (String × Text) → Res Unit

/-- How a text parameter is checked. -/
inductive Guard where
  | free
  | path
  | units
  deriving DecidableEq

/-- The classes of parameters, by what they do with a string. -/
inductive Kind where
  | boolean
  | option (valid : List String) (nullable : Bool)
  | format (valid : List String)
  | text (nullable : Bool) (guard : Guard)
  | integers
  | levelRange
  | timeRange
  | grouping
  | slice
  | region
  | crs
  | never
  | regridOptions
  | regridDestination
  | outside
  deriving DecidableEq

/-- Values of parameters. -/
inductive Val (D : Type) where
  | null
  | bool (b : Bool)
  | text (s : Text)
  | ints (is : List Int)
  | words (ws : List Text)
  | dates (a b : D)
  | allSlices
  | region (month year : Option (List Int))
  | crs (code : Int)
  | outside
  deriving DecidableEq

/-- base.py:134-145, `AbstractParameter.parse_string` up to the call of `_parse_string_`: `none` is the Python `None`. -/
def bare (low : Bool) (s : Text) : Option Text :=
  let m := strip (if low then lower s else s)
  if m = "none".toList then none else some m

/-- base.py:147-156, `validate` of `None`. -/
def null {D : Type} (nullable : Bool) : Res (Val D) := if nullable then .ok .null else .error .definitionValidation

/-- base.py:204-211, the words for true and false; `none` for the implicit `None`. -/
def boolWord (t : Text) : Option Bool :=
  if ["true".toList, "t".toList, "1".toList].contains t then some true
  else if ["false".toList, "f".toList, "0".toList].contains t then some false
  else none

/-- base.py:177-211, `BooleanParameter`. -/
def parseBoolean {D : Type} (s : Text) : Res (Val D) :=
  match (bare true s).bind boolWord with
  | some b => .ok (.bool b)
  | none => null false

/-- base.py:225-239, `StringOptionParameter`. -/
def parseOption {D : Type} (valid : List String) (nullable : Bool) (s : Text) : Res (Val D) :=
  match bare true s with
  | none => null nullable
  | some t => if (valid.map String.toList).contains t then .ok (.text t) else .error .definitionValidation

/-- definition.py:958-972, `OutputFormat`: the old names, looked for before the blanks are taken off. -/
def oldFormat (s : Text) : Text :=
  let l := lower s
  if l = "csv+".toList then "csv-shp".toList
  else if l = "numpy".toList then "ocgis".toList
  else l

/-- The checks of text parameters (definition.py:588-590, 427-434). -/
def guarded {D : Type} (w : World D) : Guard → Text → Bool
  | .free, _ => true
  | .path, t => w.pathExists t
  | .units, t => w.units t

/-- The text parameters: `prefix`, `dir_output`, `geom_uid`, `geom_select_sql_where`, `conform_units_to`, all with
`_lower_string = False`.  The units library is taken to be there. -/
def parseText {D : Type} (w : World D) (nullable : Bool) (guard : Guard) (s : Text) : Res (Val D) :=
  match bare false s with
  | none => null nullable
  | some t => if guarded w guard t then .ok (.text t) else .error .definitionValidation

/-- base.py:301-306, `IterableParameter.parse_string` where `_parse_string_` is the identity. -/
def pieces (s : Text) : List (Option Text) := (split '|' s).map (bare true)

/-- base.py:284-295 with `element_type = int` on one element.  `int(None)` raises a `TypeError`, and so does the membership
test in its handler. -/
def toInteger : Option Text → Res Int
  | none => .error .typeError
  | some t => match toInt t with
    | some i => .ok i
    | none => .error .definitionValidation

/-- definition.py:820-828 with base.py:255-299, `GeomSelectUid`.  `len(set(ret)) < len(value)` says that an element
occurs twice. -/
def parseIntegers {D : Type} (s : Text) : Res (Val D) :=
  if pieces s = [none] then .ok .null
  else if (pieces s).Nodup then ((pieces s).mapM toInteger).map .ints
  else .error .definitionValidation

/-- definition.py:860-877 with base.py:284-295, `LevelRange`.  The element types are a list, which cannot be called,
and neither texts nor `None` are in it. -/
def parseLevelRange {D : Type} (s : Text) : Res (Val D) :=
  if pieces s = [none] then .ok .null else .error .definitionValidation

/-- definition.py:1281-1293, one element of a `TimeRange`; the `assert` fails when no format fits. -/
def toDate {D : Type} (w : World D) : Option Text → Res (Option D)
  | none => .ok none
  | some t => match w.strptime t with
    | some d => .ok (some d)
    | none => .error .assertionError

/-- definition.py:1266-1272 with base.py:284-299, `TimeRange` on the elements. -/
def orderedDates {D : Type} (w : World D) : List (Option D) → Res (Val D)
  | [none] => .ok .null
  | [some a, some b] => if w.le a b then .ok (.dates a b) else .error .definitionValidation
  | _ => .error .definitionValidation

/-- definition.py:1257-1293. -/
def parseTimeRange {D : Type} (w : World D) (s : Text) : Res (Val D) :=
  (pieces s).mapM (toDate w) >>= orderedDates w

/-- definition.py:326-332: a flag is taken out once. -/
def takeFlag (flag : Text) (st : List (Option Text) × Option Text) : List (Option Text) × Option Text :=
  if st.1.contains (some flag) then (st.1.erase (some flag), some flag) else st

/-- definition.py:322-345, `CalcGrouping.parse` on the elements. -/
def groupElements (ps : List (Option Text)) : Res (List Text) :=
  let st := takeFlag "year".toList (takeFlag "unique".toList (ps, none))
  if st.1.Nodup then
    if st.1.contains none then .error .definitionValidation
    else .ok (st.1.filterMap id ++ st.2.toList)
  else .error .definitionValidation

/-- definition.py:357-381, the elements being texts. -/
def validGroups (ws : List Text) : Bool :=
  ws == ["all".toList]
  || ws.all (fun w => ["day".toList, "month".toList, "year".toList].contains w)
  || ws.all (fun w => ["unique".toList, "year".toList].contains w)

/-- definition.py:347-349, `finalize`. -/
def finalGroups {D : Type} (ws : List Text) : Val D := if ws = ["all".toList] then .text "all".toList else .words ws

/-- definition.py:296-381, `CalcGrouping` of a string. -/
def parseGrouping {D : Type} (s : Text) : Res (Val D) :=
  if pieces s = [none] then .ok .null
  else
    match groupElements (pieces s) with
    | .error e => .error e
    | .ok ws => if validGroups ws then .ok (finalGroups ws) else .error .definitionValidation

/-- definition.py:1135-1188, `Slice` of a string: any text is refused, five or more times `none` are all slices. -/
def parseSlice {D : Type} (s : Text) : Res (Val D) :=
  if pieces s = [none] then .ok .null
  else if (pieces s).all (· == none) ∧ 5 ≤ (pieces s).length then .ok .allSlices
  else .error .definitionValidation

/-- definition.py:1327-1331, one entry of a time region. -/
def regionEntry (t : Text) : Res (Text × List Int) :=
  match split '~' t with
  | [key, value] => match (split '|' value).mapM toInt with
    | some is => .ok (key, is)
    | none => .error .valueError
  | _ => .error .valueError

/-- The value a dictionary holds for a key after the assignments in order. -/
def lastOf (key : Text) (es : List (Text × List Int)) : Option (List Int) :=
  (es.reverse.find? (fun e => e.1 == key)).map (·.2)

/-- definition.py:1310-1322. -/
def region {D : Type} (es : List (Text × List Int)) : Res (Val D) :=
  if es.all (fun e => e.1 == "month".toList || e.1 == "year".toList)
  then .ok (.region (lastOf "month".toList es) (lastOf "year".toList es))
  else .error .definitionValidation

/-- definition.py:1296-1332, `TimeRegion` of a string. -/
def parseRegion {D : Type} (s : Text) : Res (Val D) :=
  match bare true s with
  | none => .ok .null
  | some t => (split ',' t).mapM regionEntry >>= region

/-- definition.py:934-950, `OutputCRS` of a string. -/
def parseCrs {D : Type} (w : World D) (s : Text) : Res (Val D) :=
  match bare true s with
  | none => .ok .null
  | some t => match toInt t with
    | none => .error .valueError
    | some i => (w.epsg i).map fun _ => .crs i

/-- base.py:62-93, setting the value of a parameter to a string.  `never`: `callback`, `optimizations`,
`output_format_options`, `search_radius_mult`, `time_subset_func`, whose return types have no strings in them.
`regridOptions`: `value.keys()` of a text or of `None` (definition.py:1077-1078).  `regridDestination`: the class wants a
keyword that `from_query` does not give (definition.py:1023-1025). -/
def parse {D : Type} (w : World D) (name : String) : Kind → Text → Res (Val D)
  | .boolean, s => parseBoolean s
  | .option valid nullable, s => parseOption valid nullable s
  | .format valid, s => parseOption valid false (oldFormat s)
  | .text nullable guard, s => parseText w nullable guard s
  | .integers, s => parseIntegers s
  | .levelRange, s => parseLevelRange s
  | .timeRange, s => parseTimeRange w s
  | .grouping, s => parseGrouping s
  | .slice, s => parseSlice s
  | .region, s => parseRegion s
  | .crs, s => parseCrs w s
  | .never, s => match bare true s with
    | none => .ok .null
    | some _ => .error .definitionValidation
  | .regridOptions, _ => .error .attributeError
  | .regridDestination, _ => .error .keyError
  | .outside, s => (w.outside name s).map fun _ => .outside

/-- The parameters of definition.py with their classes (without `dataset`).  `formats` are the names of the
converters (conv/base.py:263-291). -/
def table (formats : List String) : List (String × Kind) :=
  [("abstraction", .option ["point", "polygon", "auto"] true),
   ("add_auxiliary_files", .boolean), ("allow_empty", .boolean), ("aggregate", .boolean), ("agg_selection", .boolean),
   ("backend", .option ["ocg"] false), ("callback", .never), ("calc", .outside), ("calc_grouping", .grouping),
   ("calc_raw", .boolean), ("calc_sample_size", .boolean), ("conform_units_to", .text true .units),
   ("dir_output", .text false .path), ("file_only", .boolean), ("format_time", .boolean), ("geom", .outside),
   ("geom_select_sql_where", .text true .free), ("geom_select_uid", .integers), ("geom_uid", .text true .free),
   ("interpolate_spatial_bounds", .boolean), ("level_range", .levelRange), ("melted", .boolean),
   ("optimizations", .never), ("optimized_bbox_subset", .boolean), ("output_crs", .crs),
   ("output_format", .format formats), ("output_format_options", .never), ("prefix", .text false .free),
   ("regrid_destination", .regridDestination), ("regrid_options", .regridOptions), ("search_radius_mult", .never),
   ("select_nearest", .boolean), ("slice", .slice), ("snippet", .boolean),
   ("spatial_operation", .option ["clip", "intersects"] false), ("spatial_reorder", .boolean),
   ("spatial_wrapping", .option ["wrap", "unwrap"] true), ("time_range", .timeRange), ("time_region", .region),
   ("time_subset_func", .never), ("vector_wrap", .boolean)]

/-! ## Queries -/

/-- A query as `parse_qs` gives it: names with the non-empty lists of their values, each name once. -/
abbrev Query := List (String × List Text)

/-- `query_dict.get(key)`, first value (query.py:35, definition.py:524-527, base.py:107-114). -/
def firstValue (q : Query) (key : String) : Option Text := (q.find? (fun e => e.1 == key)).bind fun e => e.2.head?

/-- definition.py:529: the names that describe datasets. -/
def datasetKeys : List String := ["uri", "variable", "field_name", "rename_variable"]

/-- definition.py:535-539: the arguments of the dataset at one index; `store[k][idx]` raises an `IndexError` where a
list is too short. -/
def datasetArgs (store : List (String × List Text)) (idx : Nat) : Res (List (String × Text)) :=
  store.mapM fun e => match e.2[idx]? with
    | some v => .ok (e.1, v)
    | none => .error .indexError

/-- definition.py:524-532: the values of the names present, split. -/
def datasetStore (q : Query) : List (String × List Text) :=
  datasetKeys.filterMap fun k => (firstValue q k).map fun v => (k, split '|' v)

/-- definition.py:520-542, `Dataset.from_query`: the arguments of the request datasets in order. -/
def datasetFromQuery {D : Type} (w : World D) (q : Query) : Res (List (List (String × Text))) :=
  match firstValue q "uri" with
  | none => .error .keyError
  | some uri => (List.range (split '|' uri).length).mapM fun idx => do
      let args ← datasetArgs (datasetStore q) idx
      w.openDataset args
      return args

/-- What is handed over to `OcgOperations` for one name of the query (query.py:35-41): a value, or nothing for the names
that describe datasets.  `dataset` itself is looked up and read from the query a second time. -/
def parameterFromQuery {D : Type} (w : World D) (formats : List String) (q : Query) (name : String) (s : Text) :
    Res (Option (Val D)) :=
  if name = "dataset" then (datasetFromQuery w q).map fun _ => none
  else
    match (table formats).lookup name with
    | some kind => (parse w name kind s).map some
    | none => if datasetKeys.contains name then .ok none else .error .keyError

/-- query.py:35-41 for one entry of the query, with base.py:107-114: the first value counts. -/
def entryFromQuery {D : Type} (w : World D) (formats : List String) (q : Query) (e : String × List Text) :
    Res (Option (String × Val D)) :=
  match e.2.head? with
  | some s => (parameterFromQuery w formats q e.1 s).map fun v => v.map fun v => (e.1, v)
  | none => .error .indexError

/-- query.py:24-43, `get_operations` up to the creation of the operations. -/
def getOperations {D : Type} (w : World D) (formats : List String) (q : Query) :
    Res (List (List (String × Text)) × List (String × Val D)) := do
  let datasets ← datasetFromQuery w q
  let values ← q.mapM (entryFromQuery w formats q)
  return (datasets, values.filterMap id)

end Ocgis.Parms
