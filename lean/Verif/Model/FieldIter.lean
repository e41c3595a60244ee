import Verif.Model.RecordIter

/-! The records of a field: `Field.iter` (collection/field.py:636-750), `VariableCollection.iter` (variable/base.py:2053-2138),
`get_iter` of coordinates and geometries, and the formatters of tabular drivers (driver/base.py:883-908).

Iterating a variable is `Model/RecordIter.lean`. -/

namespace Ocgis.FieldIter
open Ocgis Ocgis.RecordIter Ocgis.Collection

/-- How times are shown: `str(value)`, and year, month and day for values that have them. -/
structure Fmt (α : Type) where
  str : α → α
  parts : α → Option (α × α × α)

/-- `iterator_formatter_time_value` of tabular drivers (driver/base.py:892-908). -/
def timeValue {α : Type} (fmt : Fmt α) (name : String) (value : Option α) (mask : Bool) : List (String × Cell α) :=
  [(name, .data (if mask then none else value.map fmt.str)), ("YEAR", .data ((value.bind fmt.parts).map fun p => p.1)),
   ("MONTH", .data ((value.bind fmt.parts).map fun p => p.2.1)), ("DAY", .data ((value.bind fmt.parts).map fun p => p.2.2))]

/-- `iterator_formatter_time_bounds` of tabular drivers (driver/base.py:883-890). -/
def timeBounds {α : Type} (fmt : Fmt α) (name : String) (value : Option α) (mask : Bool) : List (String × Cell α) :=
  [(name, .data (if mask then none else value.map fmt.str))]

/-- A coordinate variable; if it was made from a dataset, the identifier of the dataset. -/
structure Coord (α : Type) where
  var : Var α
  did : Option α := none

/-- What `Field.iter` looks at: the tagged variables in order, the geometry with its identifier, and the coordinates. -/
structure Fld (α : Type) where
  isEmpty : Bool := false
  data : List (Var α)
  geom : Option (Var α) := none
  ugid : Option (Var α) := none
  realization : Option (Coord α) := none
  time : Option (Coord α) := none
  level : Option (Coord α) := none

/-- The arguments of `Field.iter` (collection/field.py:647-655); `tabular` says that a tabular driver is given.  Followers are
variables. -/
structure Opts (α : Type) where
  standardize : Bool := true
  tabular : Bool := false
  primaryMask : Option String := none
  headerMap : Option (Dict String) := none
  melted : Bool := false
  variable_ : Option (Var α) := none
  followers : List (Var α) := []
  allowMasked : Bool := false
  repeaters : Option (List (String × α)) := none
  strict : Bool := false

/-- `SourcedVariable.get_iter` (variable/base.py:1638-1649): `insert` needs two arguments. -/
def addDid {α : Type} (did : Option α) (t : Tree α) : Res (Tree α) :=
  match did with
  | none => .ok t
  | some d =>
    match t with
    | .mk f fs =>
      match f.repeaters with
      | none => .ok (.mk { f with repeaters := some [("DID", d)] } fs)
      | some _ => .error .typeError

/-- `get_iter` of a coordinate (variable/base.py:1314-1363, 1638-1649).  The default formatter of drivers changes nothing
(driver/base.py:668-670).  That the list of repeated columns is extended in place is `RecordIter.getIter`. -/
def coordIter {α : Type} (addBounds allowMasked : Bool) (primary : Option String) (c : Coord α) : Res (Tree α) :=
  match getIterFollowers addBounds c.var with
  | .error e => .error e
  | .ok fs =>
    match mkIterator { mkIt { c.var with repeatRecord := none } allowMasked primary none true with
        repeaters := (getIterRepeaters none c.var.repeatRecord).1 } fs none with
    | .error e => .error e
    | .ok t => if c.var.bounds.isSome && fs.isNone then .error .typeError else addDid c.did t

/-- Followers with a formatter. -/
def setFormatter {α : Type} (g : String → Option α → Bool → List (String × Cell α)) : Tree α → Tree α
  | .mk f fs => .mk { f with formatter := some g } fs

/-- `TemporalVariable.get_iter` (variable/temporal.py:273-281). -/
def timeFormat {α : Type} (fmt : Fmt α) (tabular : Bool) : Tree α → Tree α
  | .mk f fs => if tabular then .mk { f with formatter := some (timeValue fmt) } (fs.map (setFormatter (timeBounds fmt))) else .mk f fs

/-- `GeometryVariable.get_iter` (variable/geom.py:766-777). -/
def geomIter {α : Type} (standardize allowMasked : Bool) (primary : Option String) (g : Var α) (ugid : Option (Var α)) : Res (Tree α) :=
  mkIterator (mkIt g allowMasked primary none true)
    (some (match standardize, ugid with | true, some u => [.var u] | _, _ => [])) none

/-- One optional follower. -/
def optArg {α β : Type} (x : Option β) (f : β → Res (Tree α)) : Res (List (Arg α)) :=
  match x with
  | none => .ok []
  | some c =>
    match f c with
    | .error e => .error e
    | .ok t => .ok [.iter t]

/-- The primary mask of geometries and coordinates (field.py:686-688). -/
def primaryOf {α : Type} (fld : Fld α) (o : Opts α) : Option String :=
  match fld.geom with
  | none => o.primaryMask
  | some g => some (o.primaryMask.getD g.name)

/-- The iterators of geometry and coordinates (field.py:686-708). -/
def coordArgs {α : Type} (fmt : Fmt α) (fld : Fld α) (o : Opts α) : Res (List (Arg α)) :=
  match optArg fld.geom (fun g => geomIter o.standardize o.allowMasked (primaryOf fld o) g fld.ugid),
    optArg fld.realization (coordIter false o.allowMasked (primaryOf fld o)),
    optArg fld.time (fun c => (coordIter true o.allowMasked (primaryOf fld o) c).map (timeFormat fmt o.tabular)),
    optArg fld.level (coordIter true o.allowMasked (primaryOf fld o)) with
  | .ok a, .ok b, .ok c, .ok d => .ok (a ++ b ++ c ++ d)
  | .error e, _, _, _ => .error e
  | _, .error e, _, _ => .error e
  | _, _, .error e, _ => .error e
  | _, _, _, .error e => .error e

/-- The lead variable and the other tagged variables (field.py:674-684); without tagged variables there is nothing to iterate. -/
def leadOf {α : Type} (fld : Fld α) (o : Opts α) : Res (Var α × List (Var α)) :=
  match o.variable_ with
  | some v => .ok (v, [])
  | none =>
    match fld.data with
    | [] => .error .valueError
    | v :: vs => .ok (v, vs)

mutual
/-- `get_repeaters` (variable/iterator.py:229-243): the names, with repetitions. -/
def treeHeaders {α : Type} : Tree α → List String
  | .mk f fs => (f.repeaters.getD []).map Prod.fst ++ treesHeaders fs
def treesHeaders {α : Type} : List (Tree α) → List String
  | [] => []
  | t :: ts => treeHeaders t ++ treesHeaders ts
end

/-- Names are added once, in order. -/
def addNames (found : List String) (names : List String) : List String :=
  names.foldl (fun found n => if found.contains n then found else found ++ [n]) found

/-- The names of the columns with bounds (field.py:1143-1146). -/
def boundsPairs {α : Type} (c : Coord α) (lower upper : String) : List (String × String) :=
  if c.var.bounds.isSome then [("lb_" ++ c.var.name, lower), ("ub_" ++ c.var.name, upper)] else []

/-- The standard names (field.py:718-736), in order. -/
def stdPairs {α : Type} (fld : Fld α) (heads : List String) : List (String × String) :=
  heads.map (fun k => (k, k)) ++
  (match fld.geom, fld.ugid with | some _, some u => [(u.name, u.name)] | _, _ => []) ++
  (match fld.realization with | some c => [(c.var.name, "RLZ")] | none => []) ++
  (match fld.time with
    | some c => (c.var.name, "TIME") :: boundsPairs c "LB_TIME" "UB_TIME" ++ [("YEAR", "YEAR"), ("MONTH", "MONTH"), ("DAY", "DAY")]
    | none => []) ++
  (match fld.level with | some c => (c.var.name, "LEVEL") :: boundsPairs c "LB_LEVEL" "UB_LEVEL" | none => [])

/-- `header_map` (field.py:718-736). -/
def headerMapOf {α : Type} (fld : Fld α) (o : Opts α) (heads : List String) : Option (Dict String) :=
  if o.standardize then
    match o.headerMap with
    | some m => some m
    | none => some ((stdPairs fld heads).foldl (fun m p => Dict.set m p.1 p.2) [])
  else o.headerMap

/-- The columns of the header map (variable/base.py:2115-2122). -/
def mapped {α : Type} (strict : Bool) (row : Row α) : Dict String → Row α → Res (Row α)
  | [], acc => .ok acc
  | (k, v) :: m, acc =>
    match Dict.get? row k with
    | some c => mapped strict row m (Dict.set acc v c)
    | none => if strict then .error .keyError else mapped strict row m acc

/-- The columns of melted records (variable/base.py:2123-2125). -/
def meltedColumns {α : Type} (melted : Bool) (row acc : Row α) : Res (Row α) :=
  if melted then
    match Dict.get? row "VARIABLE", Dict.get? row "VALUE" with
    | some a, some b => .ok (Dict.set (Dict.set acc "VARIABLE" a) "VALUE" b)
    | _, _ => .error .keyError
  else .ok acc

/-- The header map (variable/base.py:2114-2130). -/
def applyMap {α : Type} (strict melted : Bool) (m : Dict String) (row : Row α) : Res (Row α) :=
  match mapped strict row m [] with
  | .error e => .error e
  | .ok acc =>
    match meltedColumns melted row acc with
    | .error e => .error e
    | .ok acc =>
      if strict then .ok acc
      else .ok ((row.filter fun p => !Dict.has m p.1).foldl (fun r p => Dict.set r p.1 p.2) acc)

/-- The geometry is taken out of the record (variable/base.py:2110-2113). -/
def popGeom {α : Type} (geom : Option (Var α)) (row : Row α) : Res (Option (Cell α) × Row α) :=
  match geom with
  | none => .ok (none, row)
  | some g =>
    match Dict.get? row g.name with
    | none => .error .keyError
    | some c => .ok (some c, Dict.erase row g.name)

/-- The header map, if there is one (variable/base.py:2114-2130). -/
def rename {α : Type} (strict melted : Bool) (m : Option (Dict String)) (row : Row α) : Res (Row α) :=
  match m with
  | none => .ok row
  | some m => applyMap strict melted m row

/-- One record (variable/base.py:2109-2138). -/
def finish {α : Type} (geom : Option (Var α)) (strict melted : Bool) (m : Option (Dict String)) (row : Row α) :
    Res (Option (Cell α) × Row α) :=
  match popGeom geom row with
  | .error e => .error e
  | .ok (g, row) =>
    match rename strict melted m row with
    | .error e => .error e
    | .ok row => .ok (g, if melted then row else Dict.erase row "CALC_KEY")

/-- The repeated columns of the melted variables (variable/iterator.py:36-44). -/
def meltedReps {α : Type} (vs : List (Var α)) (n : String) : List (String × α) :=
  ((vs.reverse.find? fun v => v.name == n).bind Var.repeatRecord).getD []

/-- The records themselves (variable/base.py:2097-2138 with field.py:743-750).  `Iterator` gets no primary mask: it is the lead. -/
def records {α : Type} (fld : Fld α) (o : Opts α) (lead : Var α) (args : List (Arg α)) (m : Option (Dict String))
    (melted : Option (List (Var α))) : Res (List (Option (Cell α) × Row α)) :=
  match mkIterator (mkIt lead o.allowMasked none o.repeaters true) (some args) (melted.map fun vs => vs.map Var.name) with
  | .error e => .error e
  | .ok t =>
    match rows t (melted.map fun vs => vs.map Var.name) (meltedReps (melted.getD [])) with
    | .error e => .error e
    | .ok out => out.mapM (finish fld.geom o.strict melted.isSome m)

/-- The variables to melt (field.py:738-741): the tagged variables are not looked up when a variable is given. -/
def meltedOf {α : Type} (fld : Fld α) (o : Opts α) : Res (Option (List (Var α))) :=
  if o.melted then
    if o.variable_.isSome then .error .unboundLocal else .ok (some fld.data)
  else .ok none

/-- `Field.iter` (collection/field.py:636-750).  The iterator made for the headers attaches the same followers to the same lead, which
changes nothing more when it is done again. -/
def fieldIter {α : Type} (fmt : Fmt α) (fld : Fld α) (o : Opts α) : Res (List (Option (Cell α) × Row α)) :=
  if fld.isEmpty then .ok []
  else if o.melted && !o.standardize then .error .valueError
  else
    match leadOf fld o with
    | .error e => .error e
    | .ok (lead, rest) =>
      match coordArgs fmt fld o with
      | .error e => .error e
      | .ok cs =>
        match mkIterator (mkIt lead true none none true) (some ((o.followers ++ rest).map .var ++ cs)) none with
        | .error e => .error e
        | .ok t =>
          match meltedOf fld o with
          | .error e => .error e
          | .ok melted =>
            records fld o lead ((o.followers ++ rest).map .var ++ cs)
              (headerMapOf fld o (addNames ((o.repeaters.getD []).map Prod.fst) (treeHeaders t))) melted

end Ocgis.FieldIter
