import Verif.Model.Ops

/-! The rules for combinations of arguments, and what assignments should do. -/

namespace Ocgis.Spec.Ops
open Ocgis Ocgis.Ops

/-- The calculation takes several variables. -/
def Multivariate (c : Calc) : Prop := c.kind = .multiEval ∨ ∃ req, c.kind = .multi req

/-- A string expression. -/
def Expression (c : Calc) : Prop := c.kind = .eval ∨ c.kind = .multiEval

/-- Exactly one of the calculations takes several variables. -/
def OneMultivariate (cs : List Calc) : Prop :=
  ∃ before c after, cs = before ++ c :: after ∧ Multivariate c ∧ ∀ x ∈ before ++ after, ¬ Multivariate x

/-- Coordinates are longitudes and latitudes. -/
def Geographic (c : Crs) : Prop := c = .wgs84 ∨ c = .spherical

/-- Some dataset is on a rotated pole. -/
def OnRotatedPole (a : Args) : Prop := ∃ d ∈ a.dataset, ∃ n, d.crs = some (.rotatedPole n)

/-- What netCDF output asks of the arguments. -/
structure NetcdfRules (a : Args) : Prop where
  oneDataset : 1 < a.dataset.length → ∃ cs, a.calcs = some cs ∧ OneMultivariate cs
  noClip : a.clip = true → a.aggregate = true
  notRaw : a.calcs ≠ none → a.calcRaw = false
  notKeyed : ∀ cs, a.calcs = some cs → ∀ c ∈ cs, c.kind ≠ .duration true
  aggregateNeedsGeom : a.aggregate = true → ∃ n, a.geom = some n ∧ 0 < n
  oneGeom : ∀ n, a.geom = some n → 1 < n → a.aggregate = true ∨ a.aggSelection = true

/-- What ESMF output asks of the arguments. -/
structure EsmpyRules (a : Args) : Prop where
  oneDataset : a.dataset.length ≤ 1
  noClip : a.clip = false
  oneGeom : ∀ n, a.selectUid = some n → 1 < n → a.aggSelection = true
  noAggregate : a.aggregate = false

/-- What GeoJSON output asks of the arguments. -/
structure GeojsonRules (a : Args) : Prop where
  oneDataset : 1 < a.dataset.length → ∃ cs, a.calcs = some cs ∧ ∃ c ∈ cs, Multivariate c
  outputGeographic : ∀ c, a.outputCrs = some c → Geographic c
  inputGeographic : a.outputCrs = none → ∀ d ∈ a.dataset, ∀ c, d.crs = some c → Geographic c

/-- What a calculation asks of the arguments. -/
def CalcRules (a : Args) (c : Calc) : Prop :=
  match c.kind with
  | .plain => True
  | .eval => a.grouping = none
  | .multiEval => a.grouping = none
  | .set => a.grouping ≠ none
  | .movingWindow => a.grouping = none
  | .duration _ => ∃ g, a.grouping = some g ∧ "year" ∈ g
  | .multi required => a.sampleSize = false ∧
      ∀ r ∈ required, ∃ v, (r, v) ∈ c.kwds ∧ ∃ d ∈ a.dataset, v ∈ d.names

/-- The documented rules for combinations of arguments. -/
structure Valid (ranks : Nat) (a : Args) : Prop where
  drivers : ∀ d ∈ a.dataset, d.isField = false → ∀ l, d.formats = some l → a.format ∈ l
  netcdf : a.format = .nc → NetcdfRules a
  esmpy : a.format = .esmpy → EsmpyRules a
  geojson : a.format = .geojson → GeojsonRules a
  metaJson : a.format = .metaJson → a.dataset.length ≤ 1 ∧ ∀ d ∈ a.dataset, d.isField = false
  regrid : a.regrid = true → ranks ≤ 1 ∧ a.clip = false
  oneCrs : a.format ≠ .ocgis → a.outputCrs = none → ∀ d ∈ a.dataset, ∀ e ∈ a.dataset, d.crs = e.crs
  rotatedOutput : OnRotatedPole a → a.outputCrs = none ∨ a.outputCrs = some .spherical
  rotatedMoved : OnRotatedPole a → (a.aggregate = true ∨ a.clip = true) → a.outputCrs = some .spherical
  snippet : a.snippet = true → a.calcs = none ∧ ∀ d ∈ a.dataset, d.isField = false → d.timeRegion = false
  slice : a.slice = true → a.geom = none
  fileOnly : a.fileOnly = true → a.format = .nc ∧ a.calcs ≠ none
  calcs : ∀ cs, a.calcs = some cs → ∀ c ∈ cs, CalcRules a c

/-- The calculations are all string expressions or none of them is, a multivariate function is used once and has at least two
variables, keyword arguments have one value each, and GeoJSON output is not asked for with a multivariate function. -/
structure Simple (a : Args) : Prop where
  nonempty : a.calcs ≠ some []
  uniform : ∀ cs, a.calcs = some cs → (∀ c ∈ cs, Expression c) ∨ (∀ c ∈ cs, ¬ Expression c)
  once : ∀ cs, a.calcs = some cs → ∀ c ∈ cs, ∀ req, c.kind = .multi req →
    2 ≤ req.length ∧ ∀ x ∈ cs, x.func = c.func → x = c
  dicts : ∀ cs, a.calcs = some cs → ∀ c ∈ cs, (c.kwds.map Prod.fst).Nodup
  noGeojson : a.format = .geojson → ∀ cs, a.calcs = some cs → ∀ c ∈ cs, ∀ req, c.kind ≠ .multi req

/-- The argument of an assignment. -/
def argument : Assign → String
  | .dataset _ => "dataset"
  | .clip _ => "spatial_operation"
  | .aggregate _ => "aggregate"
  | .sampleSize _ => "calc_sample_size"
  | .calcs _ => "calc"
  | .grouping _ => "calc_grouping"
  | .calcRaw _ => "calc_raw"
  | .snippet _ => "snippet"
  | .format _ => "output_format"
  | .aggSelection _ => "agg_selection"
  | .selectUid _ => "geom_select_uid"
  | .geom _ => "geom"
  | .slice _ => "slice"
  | .fileOnly _ => "file_only"
  | .outputCrs _ => "output_crs"
  | .regrid _ => "regrid_destination"

/-- Reading the argument of an assignment from the object gives the assigned value. -/
def Reads (a : Args) : Assign → Prop
  | .dataset v => a.dataset = v
  | .clip v => a.clip = v
  | .aggregate v => a.aggregate = v
  | .sampleSize v => a.sampleSize = v
  | .calcs v => a.calcs = v
  | .grouping v => a.grouping = v
  | .calcRaw v => a.calcRaw = v
  | .snippet v => a.snippet = v
  | .format v => a.format = v
  | .aggSelection v => a.aggSelection = v
  | .selectUid v => a.selectUid = v
  | .geom v => a.geom = v
  | .slice v => a.slice = v
  | .fileOnly v => a.fileOnly = v
  | .outputCrs v => a.outputCrs = v
  | .regrid v => a.regrid = v

/-- Objects a program can hold: constructed without an exception, then assigned to, catching exceptions. -/
inductive Reachable (ranks : Nat) : Args → Prop
  | construct (ds : List Dataset) (kwargs : List Assign) :
      (construct ranks ds kwargs).2 = none → Reachable ranks (construct ranks ds kwargs).1
  | assign (a : Args) (s : Assign) : Reachable ranks a → Reachable ranks (assign ranks a s).1

/-- The assignment brings in no dataset on a rotated pole. -/
def NoRotated : Assign → Prop
  | .dataset ds => ∀ d ∈ ds, ∀ n, d.crs ≠ some (.rotatedPole n)
  | _ => True

end Ocgis.Spec.Ops
