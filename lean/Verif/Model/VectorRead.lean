import Verif.Model.GeomCabinet

/-!
# Fields of vector files

`DriverVector` (src/ocgis/driver/vector.py): the columns of a vector file are read together when the first of them is needed.  The
coordinate system (a variable too), the conversion of units and variables with other dimensions than that of the geometries are left
out.  GDAL is modelled as in `Model/GeomCabinet.lean`.
-/

namespace Ocgis.VectorRead
open Ocgis Ocgis.Records Ocgis.Cabinet

/-- An element of a column.  `fill` is the variable's fill value. -/
inductive Cell (G : Type) where
  | int (i : Int)
  | float (q : Rat)
  | nan
  | str (s : String)
  | none
  | geom (g : G)
  | fill
  deriving DecidableEq, Repr

/-- The geometry variable, or a column of a type. -/
inductive Kind where
  | geom
  | data (t : Ty)
  deriving DecidableEq, Repr

/-- A variable of the field; `initialized` is `_has_initialized_value` (variable/base.py:1623-1625). -/
structure FVar (G : Type) where
  name : String
  kind : Kind
  value : Option (List (Cell G)) := none
  mask : Option (List Bool) := none
  initialized : Bool := false
  deriving DecidableEq, Repr

/-- A field of a vector file: the dimension of its geometries and its variables in order. -/
structure VField (G : Type) where
  dim : Dim
  vars : List (FVar G)

/-- `VariableName.GEOMETRY_VARIABLE` (constants.py:201). -/
def geomName : String := "ocgis_geom"

/-- The features asked for (vector.py:108-121): bounds are a slice, arrays are passed on. -/
def readRows {G : Type} (src : Source G) (d : Dim) : Res (List (Rec G)) :=
  match d.srcIdx with
  | none => .error .valueError
  | some (.bounds a b) => (iterGeoms src { slc := some (.slice ⟨some a, some b⟩) }).map Prod.snd
  | some (.fancy xs) => (iterGeoms src { slc := some (.ints xs) }).map Prod.snd

/-- An element of `np.zeros` (vector.py:133). -/
def zero {G : Type} : Kind → Cell G
  | .data .float => .float 0
  | _ => .int 0

/-- A value as an element. -/
def ofVal {G : Type} : Val → Cell G
  | .int i => .int i
  | .float q => .float q
  | .str s => .str s
  | .null => .none

/-- `ret[dv][idx] = row['properties'][dv]` (vector.py:140-147): the element and whether it is masked.  NumPy refuses to make `None` an
integer, makes it not-a-number in an array of floating point numbers and keeps it in an array of objects. -/
def store {G : Type} (t : Ty) (v : Val) : Res (Cell G × Bool) :=
  match t, v with
  | .int, .null => .ok (.int 0, true)
  | .float, .null => .ok (.nan, false)
  | t, v =>
    match coerce t v with
    | .ok w => .ok (ofVal w, false)
    | .error e => .error e

/-- The element of a variable for a row (vector.py:135-151): properties by the name of the variable; the geometry only for the variable
with the usual name.  A file with a property of that name is left out. -/
def cellAt {G : Type} (v : FVar G) (row : Rec G) : Res (Cell G × Bool) :=
  match v.kind with
  | .geom => if v.name = geomName then .ok (.geom row.geom, false) else .ok (zero .geom, false)
  | .data t =>
    match row.props.lookup v.name with
    | none => .error .keyError
    | some x => store t x

/-- The column of a variable (vector.py:131-151).  Elements without a row remain zero; a row too many is an `IndexError`.  Which of
several errors is raised is left out. -/
def column {G : Type} (n : Nat) (rows : List (Rec G)) (v : FVar G) : Res (List (Cell G × Bool)) :=
  if n < rows.length then .error .indexError
  else
    match rows.mapM (cellAt v) with
    | .error e => .error e
    | .ok cs => .ok (cs ++ List.replicate (n - rows.length) (zero v.kind, false))

/-- `get_variable_value` for a variable of a field (vector.py:108-159): all columns. -/
def getColumns {G : Type} (src : Source G) (f : VField G) : Res (List (List (Cell G × Bool))) :=
  match readRows src f.dim with
  | .error e => .error e
  | .ok rows => f.vars.mapM (column f.dim.len.toNat rows)

/-- `get_variable_value` for a variable without a field (vector.py:124-127, 154): the values are in an ordinary array, which has no
`mask`. -/
def orphanValue {G : Type} (src : Source G) (d : Dim) (v : FVar G) : Res (List (Cell G)) :=
  match readRows src d with
  | .error e => .error e
  | .ok rows =>
    match column d.len.toNat rows v with
    | .error e => .error e
    | .ok _ => .error .attributeError

/-- Is anything masked in any column (vector.py:154)? -/
def anyMasked {G : Type} (cols : List (List (Cell G × Bool))) : Bool := cols.any fun c => c.any Prod.snd

/-- `variable.parent[k].set_value(v)` (vector.py:40-41, variable/base.py:765-823): with a mask only if something is masked in some
column (vector.py:154-157). -/
def install {G : Type} (masked : Bool) (v : FVar G) (c : List (Cell G × Bool)) : FVar G :=
  { v with value := some (c.map Prod.fst), mask := if masked then some (c.map Prod.snd) else v.mask }

/-- `init_variable_value` (vector.py:34-41): every variable of the field. -/
def initValues {G : Type} (src : Source G) (f : VField G) : Res (VField G) :=
  match getColumns src f with
  | .error e => .error e
  | .ok cols => .ok { f with vars := f.vars.zipWith (install (anyMasked cols)) cols }

/-- Change the variable of a name. -/
def update {G : Type} (k : String) (g : FVar G → FVar G) (f : VField G) : VField G :=
  { f with vars := f.vars.map fun v => if v.name = k then g v else v }

/-- The variable of a name (`field[k]`). -/
def find {G : Type} (k : String) (f : VField G) : Res (FVar G) :=
  match f.vars.find? fun v => decide (v.name = k) with
  | some v => .ok v
  | none => .error .keyError

/-- Reading because of variable `k` (variable/base.py:1689-1698). -/
def read {G : Type} (src : Source G) (k : String) (f : VField G) : Res (VField G) :=
  match initValues src f with
  | .error e => .error e
  | .ok f => .ok (update k (fun v => { v with initialized := true }) f)

/-- `field[k].get_value()` (variable/base.py:1305-1312, 1689-1698): the field afterwards and the value.  A value removed after it was
read is allocated, not read again. -/
def getValue {G : Type} (src : Source G) (k : String) (f : VField G) : Res (VField G × List (Cell G)) :=
  match find k f with
  | .error e => .error e
  | .ok v =>
    match v.value with
    | some a => .ok (f, a)
    | none =>
      if v.initialized then
        .ok (update k (fun v => { v with value := some (List.replicate f.dim.len.toNat .fill) }) f, List.replicate f.dim.len.toNat .fill)
      else
        match read src k f with
        | .error e => .error e
        | .ok f =>
          match find k f with
          | .error e => .error e
          | .ok v => .ok (f, v.value.getD [])

/-- `field[k].get_mask()` (variable/base.py:1651-1687): loads first; a mask that is there is taken away and put back. -/
def getMask {G : Type} (src : Source G) (k : String) (f : VField G) : Res (VField G × Option (List Bool)) :=
  match find k f with
  | .error e => .error e
  | .ok v =>
    if v.initialized || v.value.isSome then .ok (f, v.mask)
    else
      match read src k f with
      | .error e => .error e
      | .ok f =>
        match find k f with
        | .error e => .error e
        | .ok v => .ok (f, v.mask)

/-- NumPy indexing of one axis. -/
def takeAt {α : Type} : Index → List α → Res (List α)
  | .slice s, xs => .ok (s.get xs)
  | .ints is, xs => takeInts xs is
  | .bools bs, xs => if bs.length ≠ xs.length then .error .indexError else .ok (takeBools xs bs)

/-- The same on a value that may not be there. -/
def takeOpt {α : Type} (s : Index) : Option (List α) → Res (Option (List α))
  | none => .ok none
  | some xs =>
    match takeAt s xs with
    | .ok ys => .ok (some ys)
    | .error e => .error e

/-- A variable with its value and mask sliced (variable/base.py:322-334). -/
def sliceVar {G : Type} (s : Index) (v : FVar G) : Res (FVar G) :=
  match takeOpt s v.value with
  | .error e => .error e
  | .ok value =>
    match takeOpt s v.mask with
    | .error e => .error e
    | .ok mask => .ok { v with value := value, mask := mask }

/-- `field[{'ocgis_ngeom': idx}]` (variable/base.py:1767-1793). -/
def slice {G : Type} (idx : RawIndex) (f : VField G) : Res (VField G) :=
  match f.dim.getitem idx with
  | .error e => .error e
  | .ok d =>
    match formatSlice idx with
    | .error e => .error e
    | .ok s =>
      match f.vars.mapM (sliceVar s) with
      | .error e => .error e
      | .ok vars => .ok ⟨d, vars⟩

/-- What a caller may do with a field.  `set` is `set_value` without a mask, `setMask` is `set_mask`, `remove` is `remove_value`. -/
inductive Act (G : Type) where
  | slice (idx : RawIndex)
  | get (k : String)
  | getMask (k : String)
  | set (k : String) (a : List (Cell G))
  | setMask (k : String) (m : List Bool)
  | remove (k : String)

/-- One step (variable/base.py:761-823, 1026-1053 for the last three). -/
def step {G : Type} (src : Source G) (f : VField G) : Act G → Res (VField G)
  | .slice idx => slice idx f
  | .get k => (getValue src k f).map Prod.fst
  | .getMask k => (getMask src k f).map Prod.fst
  | .set k a =>
    match find k f with
    | .error e => .error e
    | .ok _ => .ok (update k (fun v => { v with value := some a }) f)
  | .setMask k m =>
    match find k f with
    | .error e => .error e
    | .ok _ => .ok (update k (fun v => { v with mask := some m }) f)
  | .remove k =>
    match find k f with
    | .error e => .error e
    | .ok _ => .ok (update k (fun v => { v with value := none }) f)

/-- A history, from left to right. -/
def run {G : Type} (src : Source G) (f : VField G) : List (Act G) → Res (VField G)
  | [] => .ok f
  | a :: as =>
    match step src f a with
    | .error e => .error e
    | .ok f => run src f as

/-- `get_dtype_from_fiona_type` (vector.py:285-294); the widths of text are not looked at. -/
def dtypeOf (ftype : List Char) : Res Ty :=
  if "int".toList.isPrefixOf ftype then .ok .int
  else if "str".toList.isPrefixOf ftype then .ok (.str 0)
  else if "float".toList.isPrefixOf ftype then .ok .float
  else .error .notImplemented

/-- One variable of a file's metadata (vector.py:180-183). -/
def columnType (p : String × List Char) : Res (String × Ty) :=
  match dtypeOf p.2 with
  | .ok t => .ok (p.1, t)
  | .error e => .error e

/-- The variables of a file's metadata (vector.py:180-183). -/
def columnTypes (schema : List (String × List Char)) : Res (List (String × Ty)) := schema.mapM columnType

/-- `get_fiona_type_from_pydata` with the fixed width (vector.py:331-375, constants.py:142) for a value of a record. -/
def fionaTypeText : Val → List Char
  | .int _ => "int".toList
  | .float _ => "float".toList
  | .str _ => "str:50".toList
  | .null => "int".toList

/-- The properties of `get_fiona_schema` (vector.py:311-318). -/
def fionaSchema (record : List (String × Val)) : List (String × List Char) := record.map fun p => (p.1, fionaTypeText p.2)

end Ocgis.VectorRead
