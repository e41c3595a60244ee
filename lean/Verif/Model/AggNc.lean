import Verif.Py
/-!
# Aggregated results in netCDF files

`NcConverter` (conv/nc.py:114-306) with `AbstractCollectionConverter.write` (conv/base.py:118-123, 160-204), for one process.
Every selection geometry gives a spatial collection with the data averaged over it.  The collections are written one after the
other into one file with a dimension for the geometries.  A value is what a variable has at one place of that dimension, with
all its other dimensions, or all it has when it does not have that dimension; how such a value lies in the file is the
subject of `Model/NcWrite.lean`.  Shapely's centroid is part of the collection.
-/
namespace Ocgis.AggNc

/-- Numbers (with further dimensions) or text. -/
inductive Cell (α : Type)
  | num (v : α)
  | text (s : String)
  deriving DecidableEq, Repr

/-- Where a variable is: along the dimension of the geometries; elsewhere; or it is a geometry variable, which is not
written (driver/nc.py:648-656). -/
inductive Place
  | geom
  | plain
  | shape
  deriving DecidableEq, Repr

/-- A variable of a field; `width` is `string_max_length_global`. -/
structure Vr (α : Type) where
  name : String
  place : Place
  cell : Cell α
  width : Option Nat := none
  bounds : Option String := none
  attrs : List (String × String) := []
  deriving DecidableEq, Repr

/-- A field: the names of its coordinate variables, its variables in order, its attributes; the name and size of the
dimension of the geometries and the local bounds, which begin at `gpos`. -/
structure Fld (α : Type) where
  x : Option String
  y : Option String
  vars : List (Vr α)
  attrs : List (String × String) := []
  gname : String := "ocgis_geom_union"
  gsize : Nat := 1
  gpos : Nat := 0
  deriving DecidableEq, Repr

/-- A property of the selection geometry: name, value, and `string_max_length_global` of the variable that holds it. -/
structure Prop' (α : Type) where
  key : String
  cell : Cell α
  width : Option Nat := none
  deriving DecidableEq, Repr

/-- A spatial collection with one container: whether it is empty, the centroid of its geometry, the geometry's properties and
the fields below it. -/
structure Col (α : Type) where
  empty : Bool := false
  cx : α
  cy : α
  props : List (Prop' α)
  fields : List (Fld α)
  deriving DecidableEq, Repr

/-- The operations and options: `ops.aggregate` (no operations count as `False`), `len(ops.geom)`, the option `geom_dim`, and what
is appended to the history. -/
structure Cfg where
  aggregate : Bool
  ngeom : Nat
  geomDim : Option String
  stamp : String
  deriving DecidableEq, Repr

/-- `VariableName.SPATIAL_MASK` (constants.py:197). -/
def maskName : String := "ocgis_spatial_mask"

/-- `HeaderName.ID_GEOMETRY` (constants.py:67). -/
def gidName : String := "GID"

/-- `d[k] = v` for attributes. -/
def setAttr (l : List (String × String)) (k v : String) : List (String × String) :=
  if l.any (fun p => p.1 == k) then l.map (fun p => if p.1 == k then (k, v) else p) else l ++ [(k, v)]

/-- `VariableCollection.remove_variable` (variable/base.py:2194-2224): with the bounds. -/
def removeVar {α : Type} (l : List (Vr α)) (n : String) : Res (List (Vr α)) :=
  match l.find? fun v => v.name == n with
  | none => .error .keyError
  | some v => .ok (l.filter fun w => w.name != n && decide (v.bounds ≠ some w.name))

/-- `VariableCollection.add_variable` without `force`. -/
def addVar {α : Type} (l : List (Vr α)) (v : Vr α) : Res (List (Vr α)) :=
  if l.any fun w => w.name == v.name then .error .variableInCollection else .ok (l ++ [v])

/-- conv/nc.py:180-199: the properties become variables, one after the other. -/
def addProps {α : Type} (l : List (Vr α)) : List (Prop' α) → Res (List (Vr α))
  | [] => .ok l
  | p :: ps =>
    match addVar l { name := p.key, place := .geom, cell := p.cell, width := p.width } with
    | .error e => .error e
    | .ok l => addProps l ps

/-- The attributes of a variable (`field.x.attrs.copy()`, conv/nc.py:138-139). -/
def attrsOf {α : Type} (l : List (Vr α)) (n : String) : List (String × String) :=
  match l.find? fun v => v.name == n with
  | none => []
  | some v => v.attrs

/-- conv/nc.py:136-220 for one field: the coordinates are replaced by the centroid, the mask is removed, the properties are
added, the dimension of the geometries gets its size, its bounds and its name. -/
def formatField {α : Type} (cfg : Cfg) (i : Nat) (c : Col α) (f : Fld α) : Res (Fld α) :=
  match f.x, f.y with
  | some xn, some yn =>
    let xa := attrsOf f.vars xn
    let ya := attrsOf f.vars yn
    match removeVar f.vars xn with
    | .error e => .error e
    | .ok l =>
      match removeVar l yn with
      | .error e => .error e
      | .ok l =>
        match addVar l { name := xn, place := .geom, cell := .num c.cx, attrs := setAttr xa "long_name" "Centroid longitude" } with
        | .error e => .error e
        | .ok l =>
          match addVar l { name := yn, place := .geom, cell := .num c.cy, attrs := setAttr ya "long_name" "Centroid latitude" } with
          | .error e => .error e
          | .ok l =>
            let l := if l.any fun v => v.name == maskName then l.filter fun v => v.name != maskName else l
            match addProps l c.props with
            | .error e => .error e
            | .ok l =>
              if l.any fun v => v.name == gidName then
                let l := l.map fun v => if v.name == gidName then { v with attrs := setAttr v.attrs "cf_role" "timeseries_id" } else v
                .ok { f with vars := l, gsize := cfg.ngeom, gpos := i, gname := cfg.geomDim.getD f.gname }
              else .error .keyError
  | _, _ => .error .attributeError

/-- `_preformatting_` (conv/nc.py:114-220).  It returns inside the loop: the first field is formatted, and without fields
nothing is returned. -/
def preformat {α : Type} (cfg : Cfg) (i : Nat) (c : Col α) : Res (Option (Col α)) :=
  if cfg.aggregate then
    match c.fields with
    | [] => .ok none
    | f :: fs =>
      match formatField cfg i c f with
      | .error e => .error e
      | .ok f => .ok (some { c with fields := f :: fs })
  else .ok (some c)

/-! ## The file -/

/-- A variable in the file: whether it has the dimension of the geometries, the width of text, and the values, `none` where
nothing has been written. -/
structure FVar (α : Type) where
  name : String
  place : Place
  width : Option Nat
  cells : List (Option (Cell α))
  attrs : List (String × String)
  deriving DecidableEq, Repr

/-- The file: its attributes, the name and size of the dimension of the geometries, its variables. -/
structure File (α : Type) where
  attrs : List (String × String)
  gname : String
  gsize : Nat
  vars : List (FVar α)
  deriving DecidableEq, Repr

/-- Whether the library can store a value in a variable; text that is too long goes beyond the dimension of the characters
(driver/nc.py:154-162). -/
def fits {α : Type} (width : Option Nat) : Cell α → Res Unit
  | .num _ => match width with
    | none => .ok ()
    | some _ => .error .valueError
  | .text s => match width with
    | none => .error .valueError
    | some w => if s.length ≤ w then .ok () else .error .indexError

/-- Storing the value of a variable in the file (driver/nc.py:142-170): at the local bounds, or all of it.  The library
refuses values of other dimensions. -/
def store {α : Type} (v : Vr α) (pos : Nat) (fv : FVar α) : Res (FVar α) :=
  match fits fv.width v.cell with
  | .error e => .error e
  | .ok () =>
    let pos := if v.place = .geom then pos else 0
    if v.place ≠ fv.place then .error .valueError
    else if pos < fv.cells.length then .ok { fv with cells := fv.cells.set pos (some v.cell) } else .error .indexError

/-- The variable as it is created (driver/nc.py:94-141): text is as wide as the longest, unless a width was set
(driver/base.py:795-797). -/
def newVar {α : Type} (gsize : Nat) (v : Vr α) : FVar α :=
  let width := match v.cell with
    | .num _ => none
    | .text s => some (v.width.getD s.length)
  ⟨v.name, v.place, width, List.replicate (if v.place = .geom then gsize else 1) none, v.attrs⟩

/-- The variables that are written (driver/nc.py:648-656). -/
def written {α : Type} (f : Fld α) : List (Vr α) := f.vars.filter fun v => decide (v.place ≠ .shape)

/-- `_write_archetype_` for the first collection (conv/nc.py:260-290, driver/nc.py:179-227): the file is created. -/
def createFile {α : Type} (cfg : Cfg) (f : Fld α) : Res (File α) :=
  let hist := ((f.attrs.lookup "history").getD "") ++ cfg.stamp
  let attrs := setAttr f.attrs "history" hist
  let attrs := if cfg.aggregate then setAttr attrs "featureType" "timeSeries" else attrs
  match (written f).mapM fun v => store v f.gpos (newVar f.gsize v) with
  | .error e => .error e
  | .ok vars => .ok ⟨attrs, f.gname, f.gsize, vars⟩

/-- Storing in the variable of that name: `dataset.variables[var.name]` (driver/nc.py:135-136). -/
def storeIn {α : Type} (v : Vr α) (pos : Nat) : List (FVar α) → Res (List (FVar α))
  | [] => .error .keyError
  | fv :: fvs =>
    if fv.name = v.name then
      match store v pos fv with
      | .error e => .error e
      | .ok fv => .ok (fv :: fvs)
    else
      match storeIn v pos fvs with
      | .error e => .error e
      | .ok fvs => .ok (fv :: fvs)

/-- The variables of a further field, one after the other. -/
def fillVars {α : Type} (pos : Nat) : List (Vr α) → List (FVar α) → Res (List (FVar α))
  | [], fvs => .ok fvs
  | v :: vs, fvs =>
    match storeIn v pos fvs with
    | .error e => .error e
    | .ok fvs => fillVars pos vs fvs

/-- `_write_coll_` (conv/nc.py:292-306): the first field is written, to a new file or into the one there is
(`MPIWriteMode.APPEND` is `FILL`, constants.py:282-288). -/
def writeColl {α : Type} (cfg : Cfg) (c : Option (Col α)) (file : Option (File α)) : Res (File α) :=
  match c with
  | none => .error .attributeError
  | some c =>
    match c.fields with
    | [] => .error .attributeError
    | f :: _ =>
      match file with
      | none => createFile cfg f
      | some file =>
        match fillVars f.gpos (written f) file.vars with
        | .error e => .error e
        | .ok vars => .ok { file with vars := vars }

/-- The loop of `write` (conv/base.py:170-198) from place `i` on. -/
def writeFrom {α : Type} (cfg : Cfg) : Nat → List (Col α) → Option (File α) → Res (Option (File α))
  | _, [], file => .ok file
  | i, c :: cs, file =>
    match preformat cfg i c with
    | .error e => .error e
    | .ok c =>
      match writeColl cfg c file with
      | .error e => .error e
      | .ok file => writeFrom cfg (i + 1) cs (some file)

/-- `write` (conv/base.py:160-198): collections that are empty are passed over before they are counted
(conv/base.py:118-123). -/
def writeAll {α : Type} (cfg : Cfg) (cs : List (Col α)) : Res (Option (File α)) :=
  writeFrom cfg 0 (cs.filter fun c => !c.empty) none

/-! ## The format of the file -/

/-- A dataset of the operations: a field; a request for a netCDF file with the formats of its files (`none`: the metadata
do not tell); a request for another kind of file, whose metadata tell nothing or formats. -/
inductive Src
  | field
  | netcdf (formats : Option (List String))
  | other (formats : Option (List String))
  deriving DecidableEq, Repr

/-- conv/nc.py:232-246: the formats of the request datasets. -/
def formatsOf : List Src → Res (List String)
  | [] => .ok []
  | .field :: l => formatsOf l
  | .netcdf none :: _ => .error .keyError
  | .other none :: l => formatsOf l
  | .netcdf (some fs) :: l => match formatsOf l with
    | .error e => .error e
    | .ok r => .ok (fs ++ r)
  | .other (some fs) :: l => match formatsOf l with
    | .error e => .error e
    | .ok r => .ok (fs ++ r)

/-- `_get_file_format_` (conv/nc.py:222-258); `env` is `NETCDF_FILE_FORMAT`. -/
def fileFormat (option : Option String) (ops : Option (List Src)) (env : String) : Res String :=
  match option with
  | some m => .ok m
  | none =>
    match ops with
    | none => .ok env
    | some l =>
      match formatsOf l with
      | .error e => .error e
      | .ok fs =>
        if 1 < fs.eraseDups.length then .error .valueError
        else match fs.eraseDups with
          | [] => .ok env
          | f :: _ => .ok f

end Ocgis.AggNc
