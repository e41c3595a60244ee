import Verif.Py
/-!
# Conforming units

Models `cfunits_conform()` (variable/base.py:883-917) with the values it takes and sets (variable/base.py:765-823, 932-943, 1590-1597;
variable/temporal.py:125-136, 701-711), units and their setter (variable/base.py:386-392, 714-736), and the conversion when a value is read
from a netCDF file (driver/base.py:625-643, driver/nc.py:590-602) or a vector file (driver/vector.py:34-59).  Values are rational numbers.
A unit of the conversion backend is an affine map to the base unit of its kind; logarithmic units are left out.  Which text is which unit
is a parameter.  Times are numbers or dates, dates being rational instants; all have the same calendar.  Masks in files are left out (C78).
-/
namespace Ocgis.Conform

/-- A unit of measurement: its kind, and how its numbers relate to the base unit of that kind. -/
structure U where
  kind : Nat
  scale : Rat
  offset : Rat
  deriving DecidableEq

/-- `units_src.convert(value, units_dst)` for one number: to the base unit and from it. -/
def U.convert (u w : U) (v : Rat) : Rat := (u.scale * v + u.offset - w.offset) / w.scale

/-- The values of a variable: numbers, or dates with the numbers a time variable may have kept for them (`_value_numtime`). -/
inductive Data (κ : Type)
  | num (f : κ → Rat)
  | dates (f : κ → Rat) (cache : Option (κ → Rat))

/-- A variable without its bounds. `data` is none until the value is read from the file; `integer` tells whether the data type was set to
one of integers, and is none for `auto`; `target` is `conform_units_to` in the metadata. -/
structure Elem (κ : Type) where
  data : Option (Data κ)
  units : Option String
  mask : Option (κ → Bool) := none
  integer : Option Bool := none
  file : κ → Rat := fun _ => 0
  fileUnits : Option String := none
  target : Option String := none

/-- `get_conformed_units()` (util/units.py:60-70) for all numbers. -/
def convertAll {κ : Type} (parse : String → Option U) (f : κ → Rat) (source to_ : String) : Res (κ → Rat) :=
  match parse source, parse to_ with
  | some u, some w => if u.kind = w.kind then .ok fun k => u.convert w (f k) else .error .valueError
  | _, _ => .error .valueError

/-- `_get_to_conform_value_()` (variable/base.py:1590-1591, variable/temporal.py:125-136, 701-702) of a variable that was read. Dates become
numbers in the units that the variable has at this time. -/
def toConform {κ : Type} (parse : String → Option U) (e : Elem κ) : Res (κ → Rat) :=
  match e.data with
  | none => .error .attributeError
  | some (.num f) => .ok f
  | some (.dates _ (some c)) => .ok c
  | some (.dates f none) => match e.units.bind parse with
    | none => .error .valueError
    | some u => .ok fun k => (f k - u.offset) / u.scale

/-- `value.astype(int)` for one number: towards zero. -/
def toInt (q : Rat) : Rat := if 0 ≤ q then q.floor else q.ceil

/-- The hidden elements of the masked array `np.ma.array(value, mask=mask)`. -/
def hidden {κ : Type} (e : Elem κ) (k : κ) : Bool := (e.mask.getD fun _ => false) k

/-- `set_value(value)` with a masked array (variable/base.py:773-823), and then the data type `auto` (variable/base.py:910-914). The data
type that was set before is that of the new values. -/
def setValue {κ : Type} (e : Elem κ) (g : κ → Rat) : Elem κ :=
  { e with
    data := some (.num fun k => if e.integer = some true then toInt (g k) else g k)
    mask := some (hidden e)
    integer := none }

/-- `cfunits_conform(to_units, from_units)` of a variable that was read and has no bounds, with units given. An exception leaves what was
done before it. -/
def convertElem {κ : Type} (parse : String → Option U) (e : Elem κ) (to_ source : String) : Elem κ × Res Unit :=
  match toConform parse e with
  | .error x => (e, .error x)
  | .ok f =>
    let e1 := { e with units := some to_ }
    match convertAll parse f source to_ with
    | .error x => (e1, .error x)
    | .ok g => (setValue e1 g, .ok ())

/-- Reading the value of a variable without bounds from a netCDF file (driver/base.py:625-643), unless it was read before. -/
def loadElem {κ : Type} (parse : String → Option U) (e : Elem κ) : Elem κ × Res Unit :=
  match e.data with
  | some _ => (e, .ok ())
  | none =>
    let e1 := { e with data := some (.num e.file) }
    match e.target with
    | none => (e1, .ok ())
    | some t => match e.fileUnits with
      | none => (e1, .error .keyError)
      | some s => convertElem parse e1 t s

/-- `self.bounds.cfunits_conform(to_units, from_units=from_units)` (variable/base.py:916-917). -/
def conformBounds {κ : Type} (parse : String → Option U) (b : Elem κ) (to_ source : String) : Elem κ × Res Unit :=
  match loadElem parse b with
  | (b1, .error x) => (b1, .error x)
  | (b1, .ok _) => convertElem parse b1 to_ source

/-- A variable and its bounds, two or more for each element; `vector` for variables of vector files. -/
structure UVar where
  x : Elem Nat
  bounds : Option (Elem (Nat × Nat)) := none
  vector : Bool := false

/-- `set_mask_by_variable(self, self.bounds)` (variable/base.py:1052-1053, 2509-2540): bounds of hidden elements are hidden. -/
def hideBounds (x : Elem Nat) (b : Elem (Nat × Nat)) : Elem (Nat × Nat) :=
  { b with mask := some fun k => hidden b k || hidden x k.1 }

/-- `cfunits_conform(to_units, from_units)` of a variable that was read (variable/base.py:900-917). -/
def conformLoaded (parse : String → Option U) (v : UVar) (to_ source : String) : UVar × Res Unit :=
  match toConform parse v.x with
  | .error e => (v, .error e)
  | .ok f =>
    let x1 := { v.x with units := some to_ }
    let b1 := v.bounds.map fun b => { b with units := some to_ }
    match convertAll parse f source to_ with
    | .error e => ({ v with x := x1, bounds := b1 }, .error e)
    | .ok g =>
      let x2 := setValue x1 g
      match b1.map (hideBounds x2) with
      | none => ({ v with x := x2, bounds := none }, .ok ())
      | some b =>
        let r := conformBounds parse b to_ source
        ({ v with x := x2, bounds := some r.1 }, r.2)

/-- Reading the value of a variable from its file (driver/base.py:625-643; driver/vector.py:34-59), unless it was read before. -/
def load (parse : String → Option U) (v : UVar) : UVar × Res Unit :=
  match v.x.data with
  | some _ => (v, .ok ())
  | none =>
    let v1 := { v with x := { v.x with data := some (.num v.x.file) } }
    match v.x.target with
    | none => (v1, .ok ())
    | some t => match (if v.vector then v.x.units else v.x.fileUnits) with
      | none => (v1, .error (if v.vector then .runtimeError else .keyError))
      | some s => conformLoaded parse v1 t s

/-- `cfunits_conform(to_units, from_units)` (variable/base.py:883-917). The units of the variable are looked up before its value is read.
`NoUnitsError` is `runtimeError`. -/
def conform (parse : String → Option U) (v : UVar) (to_ : String) (source : Option String := none) : UVar × Res Unit :=
  match (match source with
    | some s => .ok s
    | none => match v.x.units with
      | none => .error .runtimeError
      | some s => if (parse s).isSome then .ok s else .error .valueError : Res String) with
  | .error e => (v, .error e)
  | .ok s => match load parse v with
    | (v1, .error e) => (v1, .error e)
    | (v1, .ok _) => conformLoaded parse v1 to_ s

/-- Reading the bounds from their file. -/
def readBounds (parse : String → Option U) (v : UVar) : UVar × Res Unit :=
  match v.bounds with
  | none => (v, .ok ())
  | some b =>
    let r := loadElem parse b
    ({ v with bounds := some r.1 }, r.2)

/-- A variable of a netCDF file before it is read (driver/nc.py:590-602): its units are those it will be conformed to. Its bounds get the
units of the variable (variable/base.py:1454-1456). -/
def openNetcdf (file : Nat → Rat) (fileUnits target : Option String) (bounds : Option ((Nat × Nat → Rat) × Option String × Option String)) : UVar :=
  let units := match target with
    | some t => some t
    | none => fileUnits
  { x := { data := none, units := units, file := file, fileUnits := fileUnits, target := target }
    bounds := bounds.map fun b =>
      let own := match b.2.2 with
        | some t => some t
        | none => b.2.1
      { data := none, units := (match units with | some u => some u | none => own), file := b.1, fileUnits := b.2.1, target := b.2.2 } }

/-- A variable of a vector file before it is read (driver/vector.py:191-198). -/
def openVector (file : Nat → Rat) (units target : Option String) : UVar :=
  { x := { data := none, units := units, file := file, fileUnits := units, target := target }, vector := true }

end Ocgis.Conform
