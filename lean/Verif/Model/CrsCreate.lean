import Verif.Py
/-!
# Making a coordinate system from a definition

Models `CoordinateReferenceSystem.__init__`, `Spherical()`, `WGS84()`, `fuzzy_check` and `create_crs` (variable/crs.py:153-177, 472-520, 800-808,
861-870, 1180-1205).  What PROJ.4 and GDAL do with a definition is a parameter: `norm` is the way of a dictionary through `to_string`,
`ImportFromProj4`, `ExportToProj4` and `from_string`, `parse` is `from_string`, `codeText` is the text GDAL exports for a code, and `int` reads
a number.  Numbers are rational; that `True == 1` is left out.
-/
namespace Ocgis.CrsCreate

/-- A value in a definition. -/
inductive Val
  | text (t : List Char)
  | num (q : Rat)
  | flag (b : Bool)
  deriving DecidableEq, Repr

/-- A definition, as a dictionary in its order. -/
abbrev Def := List (String × Val)

/-- The libraries. -/
structure Proj where
  norm : Def → Def
  parse : String → Def
  codeText : Int → String
  int : List Char → Option Int

/-- The classes made here. -/
inductive Kind
  | plain
  | spherical
  | wgs84
  deriving DecidableEq, Repr

/-- A coordinate system: its class, its name, the code it remembers, and its definition. -/
structure System where
  kind : Kind
  name : String
  code : Option Int
  value : Def
  deriving DecidableEq, Repr

/-- `value.get(k)`. -/
def get? (k : String) (d : Def) : Option Val := (d.find? fun e => e.1 == k).map (·.2)

/-- The end of `__init__` (variable/crs.py:512-520): an empty definition is refused. -/
def finish (P : Proj) (kind : Kind) (name : String) (code : Option Int) (d : Def) : Res System :=
  let v := P.norm d
  if v = [] then .error .valueError else .ok ⟨kind, name, code, v⟩

/-- The text `0,0,0,0,0,0,0` (variable/crs.py:800, 861). -/
def zeros : Val := .text ['0', ',', '0', ',', '0', ',', '0', ',', '0', ',', '0', ',', '0']

/-- The text `longlat`. -/
def longlat : Val := .text ['l', 'o', 'n', 'g', 'l', 'a', 't']

/-- The text `WGS84`. -/
def datum84 : Val := .text ['W', 'G', 'S', '8', '4']

/-- The definition in `WGS84.__init__` (variable/crs.py:865). -/
def wgsDef : Def := [("no_defs", .flag true), ("datum", datum84), ("proj", longlat), ("towgs84", zeros)]

/-- `WGS84()` (variable/crs.py:864-870): tried again with an ellipsoid. -/
def wgs84 (P : Proj) : Res System :=
  match finish P .wgs84 "WGS84_EPSG_4326" none wgsDef with
  | .ok s => .ok s
  | .error _ => finish P .wgs84 "WGS84_EPSG_4326" none (wgsDef ++ [("ellps", datum84)])

/-- `Spherical()` (variable/crs.py:803-808). -/
def spherical (P : Proj) : Res System :=
  finish P .spherical "latitude_longitude" none
    [("proj", longlat), ("towgs84", zeros), ("no_defs", .text []), ("a", .num 6370997), ("b", .num 6370997)]

/-- `text.split(':')[1]`. -/
def second (t : List Char) : Option (List Char) :=
  match t.dropWhile (· ≠ ':') with
  | [] => none
  | _ :: r => some (r.takeWhile (· ≠ ':'))

/-- The check of init keys (variable/crs.py:485-488): the definition and the code after it. -/
def initCheck (P : Proj) (d : Def) (code : Option Int) : Res (Option Def × Option Int) :=
  if (get? "init" d).isSome then
    match d with
    | (_, .text t) :: _ =>
      if t.take 4 = ['e', 'p', 's', 'g'] then
        match second t with
        | none => .error .indexError
        | some n =>
          match P.int n with
          | none => .error .valueError
          | some c => .ok (none, some c)
      else .ok (some d, code)
    | _ => .error .attributeError
  else .ok (some d, code)

/-- The choice of the definition (variable/crs.py:490-499). -/
def choose (P : Proj) (d : Option Def) (proj4 : Option String) (code : Option Int) : Res Def :=
  match d with
  | some d => .ok d
  | none =>
    match proj4 with
    | some t => .ok (P.parse t)
    | none =>
      match code with
      | some c => .ok (P.parse (P.codeText c))
      | none => .error .valueError

/-- `CoordinateReferenceSystem(value, proj4, epsg, name)` (variable/crs.py:472-520). -/
def make (P : Proj) (value : Option Def) (proj4 : Option String) (code : Option Int) (name : String) : Res System :=
  let start : Res (Option Def) := if code = some 4326 then (wgs84 P).map fun s => some s.value else .ok value
  start.bind fun v =>
    let checked : Res (Option Def × Option Int) := match v with
      | some d => initCheck P d code
      | none => .ok (none, code)
    checked.bind fun vc => (choose P vc.1 proj4 vc.2).bind fun d => finish P .plain name code d

/-- The check of the datum shift (variable/crs.py:174-176). -/
def unshifted (d : Def) : Bool :=
  match get? "towgs84" d with
  | some t => t == zeros
  | none => true

/-- `fuzzy_check(value)` (variable/crs.py:153-177) for a class with these values. -/
def fuzzy (req : Def) (d : Def) : Bool :=
  req.all (fun e => get? e.1 d == some e.2) && unshifted d

/-- What `create_crs` is given: nothing, a definition, or a coordinate system, with a definition or without (Cartesian and tripole). -/
inductive Arg
  | nothing
  | dict (d : Def)
  | system (d : Option Def)
  deriving DecidableEq, Repr

/-- `create_crs` for a definition (variable/crs.py:1194-1204). -/
def createDef (P : Proj) (d : Def) (name : String) : Res System :=
  let s := fuzzy [("a", .num 6370997), ("b", .num 6370997), ("proj", longlat)] d
  let w := fuzzy [("datum", datum84), ("proj", longlat)] d
  if s && w then .error .valueError
  else if s then spherical P
  else if w then wgs84 P
  else make P (some d) none none name

/-- `create_crs(value, name=name)` (variable/crs.py:1180-1205). -/
def create (P : Proj) (a : Arg) (name : String) : Res (Option System) :=
  match a with
  | .nothing => .ok none
  | .dict d => (createDef P d name).map some
  | .system (some d) => (createDef P d name).map some
  | .system none => .error .attributeError

end Ocgis.CrsCreate
