import Verif.Model.Dimension
import Verif.Model.Records

/-!
# Selecting geometries from a file

`GeomCabinet` and `GeomCabinetIterator` (src/ocgis/spatial/geom_cabinet.py).  GDAL is modelled by the list of a layer's
features in file order.
-/

namespace Ocgis.Cabinet
open Ocgis Ocgis.Records

/-- A feature: GDAL's feature identifier, the geometry and the attribute values. -/
structure Feature (G : Type) where
  fid : Int
  geom : G
  props : List (String × Val)

/-- A layer: the attribute names, the features in file order, and whether the file is a file geodatabase (`OpenFileGDB`). -/
structure Source (G : Type) where
  fields : List (String × Ty)
  features : List (Feature G)
  geodatabase : Bool := false

/-- What is asked for (`GeomCabinetIterator.__init__`, geom_cabinet.py:328-341).  A `where` clause is modelled by the test GDAL
evaluates on each feature. -/
structure Query (G : Type) where
  selectUid : Option (List Int) := none
  sqlWhere : Option (Feature G → Bool) := none
  slc : Option RawIndex := none
  uid : Option String := none

/-- `env.DEFAULT_GEOM_UID` (src/ocgis/environment.py:81). -/
def defaultUid : String := "UGID"

/-- SQL `column IN (…)` or `column = …` on one value; a null is not selected.  Comparison of text with numbers is left out: it
never matches. -/
def sqlIn (ids : List Int) : Option Val → Bool
  | some (.int i) => ids.contains i
  | some (.float q) => ids.any fun i => decide ((i : Rat) = q)
  | _ => false

/-- `_get_features_object_` (geom_cabinet.py:215-275).  The `where` clause takes precedence.  An unknown column or an empty list
(`IN ()`) makes GDAL return no layer, iterating over which is a `TypeError`. -/
def getFeatures {G : Type} (src : Source G) (q : Query G) : Res (List (Feature G)) :=
  match q.sqlWhere with
  | some p => .ok (src.features.filter p)
  | none =>
    match q.selectUid with
    | none => .ok src.features
    | some ids =>
      if ids = [] then .error .typeError
      else if (src.fields.lookup (q.uid.getD defaultUid)).isNone then .error .typeError
      else .ok (src.features.filter fun f => sqlIn ids (f.props.lookup (q.uid.getD defaultUid)))

/-- `_o_itr_` (geom_cabinet.py:139-147) from feature number `ctr` on. -/
def walkFrom {G : Type} (start : Int) (stop : Option Int) : Nat → List (Feature G) → List (Feature G)
  | _, [] => []
  | ctr, f :: fs =>
    if (ctr : Int) < start then walkFrom start stop (ctr + 1) fs
    else if stop = some (ctr : Int) then []
    else f :: walkFrom start stop (ctr + 1) fs

/-- `features.GetFeature(idx)`: by GDAL's identifier; using the result of a failed search is an `AttributeError`. -/
def getByFid {G : Type} (fs : List (Feature G)) (i : Int) : Res (Feature G) :=
  match fs.find? fun f => decide (f.fid = i) with
  | some f => .ok f
  | none => .error .attributeError

/-- `int(flag)` for a boolean array's elements (geom_cabinet.py:152). -/
def boolInt (b : Bool) : Int := if b then 1 else 0

/-- The features iterated over with a slice (geom_cabinet.py:123-152).  The step of a slice, which is ignored, is left out.
Comparing a number to a missing start is a `TypeError`, unless there are no features to compare. -/
def sliceFeatures {G : Type} (src : Source G) (slc : Index) : Res (List (Feature G)) :=
  match slc with
  | .slice s =>
    match s.start with
    | none => if src.features = [] then .ok [] else .error .typeError
    | some a => .ok (walkFrom a s.stop 0 src.features)
  | .ints xs => if src.geodatabase then .error .attributeError else xs.mapM (getByFid src.features)
  | .bools bs => if src.geodatabase then .error .attributeError else (bs.map boolInt).mapM (getByFid src.features)

/-- All selected features, before conversion (geom_cabinet.py:119-152). -/
def selected {G : Type} (src : Source G) (q : Query G) : Res (List (Feature G)) :=
  match q.slc with
  | none => getFeatures src q
  | some idx =>
    if q.selectUid.isSome || q.sqlWhere.isSome then .error .valueError
    else
      match formatSlice idx with
      | .error e => .error e
      | .ok s => sliceFeatures src s

/-- `get_uid_from_properties` (geom_cabinet.py:380-413): the name of the identifier and whether it must be added. -/
def uidFromProps (props : List (String × Val)) (uid : Option String) : Res (String × Bool) :=
  match uid with
  | some u =>
    match props.lookup u with
    | none => .error .valueError
    | some v =>
      match toInt v with
      | .ok _ => .ok (u, false)
      | .error e => .error e
  | none =>
    match props.lookup defaultUid with
    | none => .ok (defaultUid, true)
    | some v =>
      match toInt v with
      | .ok _ => .ok (defaultUid, false)
      | .error e => .error e

/-- `d[k] = v` on an ordered dictionary. -/
def dictSet (props : List (String × Val)) (k : String) (v : Val) : List (String × Val) :=
  if (props.lookup k).isSome then props.map fun p => if p.1 = k then (k, v) else p else props ++ [(k, v)]

/-- The record of a feature once the identifier's name is known (geom_cabinet.py:155-177). -/
def toRecord {G : Type} (uid : String) (addUid : Bool) (f : Feature G) : Res (Rec G) :=
  if addUid then .ok ⟨f.geom, dictSet f.props uid (.int f.fid)⟩
  else
    match f.props.lookup uid with
    | none => .error .keyError
    | some v =>
      match toInt v with
      | .ok i => .ok ⟨f.geom, dictSet f.props uid (.int i)⟩
      | .error e => .error e

/-- `iter_geoms` without `union` and `as_field` (geom_cabinet.py:98-192): the identifier's name and the records.  The records
yielded before an error are left out. -/
def iterGeoms {G : Type} (src : Source G) (q : Query G) : Res (String × List (Rec G)) :=
  match selected src q with
  | .error e => .error e
  | .ok [] => .error .valueError
  | .ok (f :: fs) =>
    match uidFromProps f.props q.uid with
    | .error e => .error e
    | .ok (u, add) =>
      match (f :: fs).mapM (toRecord u add) with
      | .error e => .error e
      | .ok rs => .ok (u, rs)

/-- `iter_geoms` with `as_field` (geom_cabinet.py:179-181): every record becomes a field, with the file's schema. -/
def iterFields {G : Type} (src : Source G) (q : Query G) : Res (List (Fld G)) :=
  match iterGeoms src q with
  | .error e => .error e
  | .ok (u, rs) => rs.mapM fun r => fromRecords (some src.fields) u [r]

/-- `iter_geoms` with `union` (geom_cabinet.py:111-117). -/
def iterUnion {G : Type} (union : G → G → G) (src : Source G) (q : Query G) : Res (Fld G) :=
  match iterGeoms src q with
  | .error e => .error e
  | .ok (_, rs) => fromRecordsUnion union rs

/-- `GeomCabinetIterator.__len__` (geom_cabinet.py:354-377); `union` tells whether the geometries are unioned. -/
def iterLen {G : Type} (src : Source G) (q : Query G) (union : Bool) : Res Nat :=
  if union then .ok 1
  else
    match q.slc with
    | some idx =>
      match formatSlice idx with
      | .error e => .error e
      | .ok (.slice _) => .error .typeError
      | .ok (.ints xs) => .ok xs.length
      | .ok (.bools bs) => .ok bs.length
    | none =>
      match q.selectUid with
      | some ids => .ok ids.length
      | none =>
        match getFeatures src q with
        | .ok fs => .ok fs.length
        | .error e => .error e

/-! ### Finding files -/

/-- A file below the cabinet's directory: its path, its name without extension, and whether its name ends in `shp`. -/
structure FileEntry where
  path : String
  stem : String
  shp : Bool

/-- `keys()` (geom_cabinet.py:59-69), over the files in the order of `os.walk`. -/
def keys (fs : List FileEntry) : List String := (fs.filter FileEntry.shp).map FileEntry.stem

/-- `get_shp_path(key)` (geom_cabinet.py:81-96): the first that matches. -/
def shpPath (fs : List FileEntry) (key : String) : Res String :=
  match fs.find? fun f => f.shp && decide (f.stem = key) with
  | some f => .ok f.path
  | none => .error .valueError

/-- `_get_path_by_key_or_direct_path_` (geom_cabinet.py:194-212); `onDisk` tells which paths exist. -/
def resolvePath (fs : List FileEntry) (onDisk : String → Bool) (key path : Option String) : Res String :=
  let found : Res String :=
    match key with
    | some k => shpPath fs k
    | none =>
      match path with
      | some p => .ok p
      | none => .error .valueError
  match found with
  | .error e => .error e
  | .ok p => if onDisk p then .ok p else .error .runtimeError

end Ocgis.Cabinet
