import Verif.Py
/-!
# Identifiers for the features of a shapefile

Models `ShpProcess` and its command (util/shp_process.py:11-104).  Geometries are of any type, with the test for validity and the cleaning of
invalid ones (`buffer(0.0)`) as parameters; warnings are left out.  A file of features is known by folder and name; the folder of the output
exists.  Opening a file for writing empties it.  The features of a file have the properties of its schema.
-/
namespace Ocgis.ShpProcess

/-- The value of a property. -/
inductive Val
  | int (i : Int)
  | real (q : Rat)
  | text (s : String)
  | nothing
  deriving DecidableEq, Repr

/-- `int(value)`: the part of a real number after the point is dropped; which texts are integers is a parameter. -/
def toInt (parse : String → Option Int) : Val → Res Int
  | .int i => .ok i
  | .real q => .ok (if 0 ≤ q then q.floor else q.ceil)
  | .text s => match parse s with
    | some i => .ok i
    | none => .error .valueError
  | .nothing => .error .typeError

/-- A feature: its geometry and its properties. -/
structure Feature (γ : Type) where
  geom : γ
  props : List (String × Val)
  deriving DecidableEq

/-- A file: names and types of the properties, and the features. -/
structure Shp (γ : Type) where
  schema : List (String × String)
  features : List (Feature γ)
  deriving DecidableEq

/-- A path: folder and file name. -/
abbrev Path := String × String

/-- The files there are. -/
abbrev Disk (γ : Type) := Path → Option (Shp γ)

/-- `feature['properties'].update({key: value})`. -/
def setProp : List (String × Val) → String → Val → List (String × Val)
  | [], k, v => [(k, v)]
  | p :: ps, k, v => if p.1 = k then (k, v) :: ps else p :: setProp ps k v

/-- `feature['properties'][key]`. -/
def getProp (ps : List (String × Val)) (k : String) : Option Val := (ps.find? fun p => p.1 == k).map (·.2)

/-- `_iter_source_` (util/shp_process.py:66-84): invalid geometries are cleaned. -/
def source {γ : Type} (valid : γ → Bool) (clean : γ → γ) (f : Feature γ) : Feature γ :=
  if valid f.geom then f else { f with geom := clean f.geom }

/-- The name of the identifier (util/shp_process.py:41): `name or 'UGID'`. -/
def identifierOf : Option String → String
  | none => "UGID"
  | some n => if n = "" then "UGID" else n

/-- The new schema (util/shp_process.py:42-46): the identifier is first and not there a second time. -/
def newSchema (schema : List (String × String)) (identifier : String) : List (String × String) :=
  (identifier, "int") :: schema.filter fun p => p.1 != identifier

/-- The new feature (util/shp_process.py:50-54) with the counter. -/
def identify {γ : Type} (parse : String → Option Int) (identifier : String) (ugid : Option String) (ctr : Nat) (f : Feature γ) : Res (Feature γ) :=
  match ugid with
  | none => .ok { f with props := setProp f.props identifier (.int ctr) }
  | some a => match getProp f.props a with
    | none => .error .keyError
    | some v => match toInt parse v with
      | .error e => .error e
      | .ok i => .ok { f with props := setProp f.props identifier (.int i) }

/-- The loop over the features (util/shp_process.py:47-55): what was written, and the exception that ended it. -/
def loop {γ : Type} (parse : String → Option Int) (valid : γ → Bool) (clean : γ → γ) (identifier : String) (ugid : Option String) :
    Nat → List (Feature γ) → List (Feature γ) × Res Unit
  | _, [] => ([], .ok ())
  | ctr, f :: fs => match identify parse identifier ugid ctr (source valid clean f) with
    | .error e => ([], .error e)
    | .ok g =>
      let r := loop parse valid clean identifier ugid (ctr + 1) fs
      (g :: r.1, r.2)

/-- The file that is written (util/shp_process.py:29-37). -/
def target (path : Path) (folder : String) (key : Option String) : Path :=
  (folder, match key with
    | none => path.2
    | some k => k ++ ".shp")

/-- Writing a file. -/
def put {γ : Type} (d : Disk γ) (p : Path) (s : Shp γ) : Disk γ := fun q => if q = p then some s else d q

/-- `ShpProcess(path, folder).process(key, ugid, name)` (util/shp_process.py:21-60). The features are read after the output was opened for
writing. -/
def process {γ : Type} (parse : String → Option Int) (valid : γ → Bool) (clean : γ → γ) (d : Disk γ) (path : Path) (folder : String)
    (key ugid name : Option String) : Disk γ × Res Path :=
  match d path with
  | none => (d, .error .ioError)
  | some s =>
    let out := target path folder key
    let schema := newSchema s.schema (identifierOf name)
    let d1 := put d out { schema := schema, features := [] }
    match d1 path with
    | none => (d1, .error .ioError)
    | some s1 =>
      let r := loop parse valid clean (identifierOf name) ugid 1 s1.features
      let d2 := put d1 out { schema := schema, features := r.1 }
      match r.2 with
      | .error e => (d2, .error e)
      | .ok _ => (d2, .ok out)

/-- The command (util/shp_process.py:87-104) with its options: `--ugid` and `--key` are not used, and a folder that is not given is set too
late; joining a path to it is a `TypeError`. -/
def command {γ : Type} (parse : String → Option Int) (valid : γ → Bool) (clean : γ → γ) (d : Disk γ) (path : Path)
    (folder _key _ugid : Option String) : Disk γ × Res Path :=
  match folder with
  | none => (d, .error .typeError)
  | some f => process parse valid clean d path f none none none

end Ocgis.ShpProcess
