import Verif.Model.Text
import Verif.Model.MeshReduce
import Verif.Spec.Text

/-!
# Mesh files

`src/ocgis/driver/nc_ugrid.py` (the attribute host variable by which UGRID files name their coordinates) and
`src/ocgis/driver/nc_esmf_unstruct.py` (nodes in one two-dimensional variable, connectivity as counts and a flat
array), on one process.  The netCDF library is not modelled: a file holds the variables written to it, without
attributes that are `None` (variable/attributes.py:44-47).
-/

namespace Ocgis.MeshFile
open Ocgis Ocgis.Text Ocgis.Geomc Ocgis.MeshReduce

/-! ## UGRID: names of coordinates in attributes -/

/-- One topology of a dimension map: the names of its coordinate variables and of its connectivity. -/
structure Topo where
  x : Option Text
  y : Option Text
  z : Option Text
  conn : Option Text
  deriving DecidableEq

/-- A dimension map as far as the UGRID driver uses it. -/
structure Names where
  poly : Option Topo
  line : Option Topo
  point : Option Topo
  host : Option Text
  deriving DecidableEq

/-- The attributes of a mesh topology variable (nc_ugrid.py:55-63).  Simplified: `dimension` and `locations`, which
nothing reads, are left out. -/
structure Host where
  nodes : Option Text
  faces : Option Text
  conn : Option Text
  deriving DecidableEq

/-- A variable of the field or file: its dimensions, and its attributes if it has the role of a mesh topology. -/
structure VarInfo where
  dims : List Text
  host : Option Host
  deriving DecidableEq

/-- nc_ugrid.py:26-29, 35-38: `' '.join` of the names, the third only if there is one; `None` is no string. -/
def joinNames (x y z : Option Text) : Res Text :=
  match x, y with
  | some x, some y => .ok (Spec.joined ' ' ([x, y] ++ z.toList))
  | _, _ => .error .typeError

/-- nc_ugrid.py:20-29, `face_coordinates`. -/
def faceNames (point : Option Topo) : Res (Option Text) :=
  match point with
  | none => .ok none
  | some t => if t.x.isNone then .ok none else match joinNames t.x t.y t.z with
    | .error e => .error e
    | .ok s => .ok (some s)

/-- nc_ugrid.py:31-41, `node_coordinates`. -/
def nodeNames (poly : Option Topo) : Res (Option Text) :=
  match poly with
  | none => .ok none
  | some t => match joinNames t.x t.y t.z with
    | .error e => .error e
    | .ok s => .ok (some s)

/-- nc_ugrid.py:18-65, `create_host_attribute_variable`. -/
def createHost (m : Names) : Res Host :=
  match faceNames m.point with
  | .error e => .error e
  | .ok faces => match nodeNames m.poly with
    | .error e => .error e
    | .ok nodes => .ok ⟨nodes, faces, m.poly.bind (·.conn)⟩

/-- constants.py:202. -/
def hostName : Text := "ocgis_mesh_host".toList

/-- nc_ugrid.py:119-132, `_get_field_write_target_`: the variables written.  A second variable of the same name is
refused by `add_variable`.  The coordinate system is not modelled. -/
def writeUgrid (m : Names) (vars : List (Text × VarInfo)) : Res (List (Text × VarInfo)) :=
  if (match m.host with | none => true | some h => (vars.lookup h).isNone) then
    match createHost m with
    | .error e => .error e
    | .ok h =>
      if (vars.lookup hostName).isSome then .error .variableInCollection
      else .ok (vars ++ [(hostName, ⟨[], some h⟩)])
  else .ok vars

/-- nc_ugrid.py:156: the variable named and its first dimension.  A name that is no variable is a `KeyError`, a
variable without dimensions an `IndexError`. -/
def coordinate (vars : List (Text × VarInfo)) (name : Text) : Res (Text × Text) :=
  match vars.lookup name with
  | none => .error .keyError
  | some v => match v.dims with
    | [] => .error .indexError
    | d :: _ => .ok (name, d)

/-- nc_ugrid.py:155-156, the loop over the names, `keys` of the three keys being left. -/
def coordinates (vars : List (Text × VarInfo)) : Nat → List Text → Res (List (Text × Text))
  | _, [] => .ok []
  | 0, _ :: _ => .error .indexError
  | k + 1, n :: ns => match coordinate vars n with
    | .error e => .error e
    | .ok c => match coordinates vars k ns with
      | .error e => .error e
      | .ok cs => .ok (c :: cs)

/-- nc_ugrid.py:135-158, `set_coordinate_dmap_variables`: the names with their dimensions, for `x`, `y` and `level` in
that order. -/
def setCoordinates (vars : List (Text × VarInfo)) (attr : Option Text) : Res (Option (List (Text × Text))) :=
  match attr with
  | none => .ok none
  | some s => match coordinates vars 3 (split ' ' s) with
    | .error e => .error e
    | .ok cs => .ok (some cs)

/-- What is read of a UGRID file: the variables and dimensions of the nodes, of the connectivity, of the face
coordinates, and the host variable. -/
structure ReadNames where
  nodes : Option (List (Text × Text))
  conn : Option (Text × Text)
  faces : Option (List (Text × Text))
  host : Text
  deriving DecidableEq

/-- nc_ugrid.py:72-76, the loop over the variables: the last one with the role stays. -/
def findHost (vars : List (Text × VarInfo)) : Option (Text × Host) :=
  (vars.filterMap fun v => v.2.host.map fun h => (v.1, h)).getLast?

/-- nc_ugrid.py:67-92, `create_dimension_map`, what is added to the map of the CF driver. -/
def readUgrid (vars : List (Text × VarInfo)) : Res ReadNames :=
  match findHost vars with
  | none => .error .valueError
  | some (name, h) => match setCoordinates vars h.faces with
    | .error e => .error e
    | .ok faces => match setCoordinates vars h.nodes with
      | .error e => .error e
      | .ok none => .ok ⟨none, none, faces, name⟩
      | .ok (some nodes) => match h.conn with
        | none => .error .keyError
        | some c => match coordinate vars c with
          | .error e => .error e
          | .ok conn => .ok ⟨some nodes, some conn, faces, name⟩

/-- nc_ugrid.py:94-117, `get_distributed_dimension_name`, which every opening of a file with dimensions calls
(driver/base.py:219-221).  A UGRID file never sets the line topology.  The last branch looks for the polygon topology
again. -/
def distributedDimension (r : ReadNames) : Res Text :=
  match r.conn with
  | some c => .ok c.2
  | none => match r.nodes with
    | some ((_, d) :: _) => .ok d
    | _ => .error .valueError

/-! ## ESMF unstructured: values -/

/-- A mesh held in the UGRID representation.  Rows of the connectivity are the arrays of an object array, as
`convert_to` makes them. -/
structure UgridMesh (α : Type _) where
  x : List α
  y : List α
  z : Option (List α)
  rows : List (List Int)
  start : Int
  brk : Option Int
  centres : Option (List α × List α)
  mask : Option (Text × List Bool)

/-- An ESMF unstructured file: rows of `nodeCoords`, `numElementConn`, `elementConn` with its attributes, rows of
`centerCoords`, `elementMask`. -/
structure EsmfFile (α : Type _) where
  nodeCoords : List (List α)
  counts : List Nat
  flat : List Int
  startAttr : Option Int
  breakAttr : Option Int
  centerCoords : Option (List (List α))
  elementMask : Option (List Bool)
  deriving DecidableEq

/-- `nc_esmf_unstruct.py:48`. -/
def maskName : Text := "elementMask".toList

/-- nc_esmf_unstruct.py:98-203, `_convert_from_ugrid_`.  `elements[0]` of an empty array is an `IndexError` (line 118).
Centre coordinates and other masks are written under the names they have. -/
def fromUgrid {α : Type _} (m : UgridMesh α) : Res (EsmfFile α) :=
  if m.z.isSome then .error .assertionError
  else if m.rows.isEmpty then .error .indexError
  else .ok
    { nodeCoords := List.zipWith (fun a b => [a, b]) m.x m.y
      counts := m.rows.map List.length
      flat := m.rows.flatten
      startAttr := some m.start
      breakAttr := m.brk
      centerCoords := none
      elementMask := match m.mask with
        | some (n, vs) => if n = maskName then some vs else none
        | none => none }

/-- A coordinate variable after its section has been taken: dimensions of size 1 are dropped. -/
inductive Column (α : Type _) where
  | vector (vs : List α)
  | scalar (v : α)
  deriving DecidableEq

/-- dimension_map.py:309-315, the section `(None, k)` of a two-dimensional variable, reshaped to the dimensions larger
than 1.  An empty array cannot be reshaped to no dimensions. -/
def section' {α : Type _} (rows : List (List α)) (k : Nat) : Res (Column α) :=
  match rows.mapM fun r => r[k]? with
  | none => .error .indexError
  | some vs => if 1 < vs.length then .ok (.vector vs) else match vs with
    | [v] => .ok (.scalar v)
    | _ => .error .valueError

/-- A mesh read from an ESMF unstructured file. -/
structure EsmfMesh (α : Type _) where
  x : Column α
  y : Column α
  conn : Conn
  start : Int
  brk : Option Int
  centres : Option (Column α × Column α)
  mask : Option (List Bool)
  deriving DecidableEq

/-- nc_esmf_unstruct.py:41-46 with dimension_map.py:302-326, the centres. -/
def readCentres {α : Type _} (c : Option (List (List α))) : Res (Option (Column α × Column α)) :=
  match c with
  | none => .ok none
  | some rows => match section' rows 0 with
    | .error e => .error e
    | .ok cx => match section' rows 1 with
      | .error e => .error e
      | .ok cy => .ok (some (cx, cy))

/-- nc_esmf_unstruct.py:21-52, `create_dimension_map`, and what the map then leads to.  Without the attribute the
connectivity starts at 1 (line 18). -/
def readEsmf {α : Type _} (f : EsmfFile α) : Res (EsmfMesh α) :=
  match section' f.nodeCoords 0 with
  | .error e => .error e
  | .ok x => match section' f.nodeCoords 1 with
    | .error e => .error e
    | .ok y => match readCentres f.centerCoords with
      | .error e => .error e
      | .ok c => .ok ⟨x, y, .ragged f.counts f.flat, f.startAttr.getD 1, f.breakAttr, c, f.elementMask⟩

/-- nc_esmf_unstruct.py:85-92, two columns put back together; a variable without dimensions has no first one. -/
def rejoin {α : Type _} (x y : Column α) : Res (List (List α)) :=
  match x, y with
  | .vector xs, .vector ys => .ok (List.zipWith (fun a b => [a, b]) xs ys)
  | _, _ => .error .indexError

/-- nc_esmf_unstruct.py:76-95, the centres when writing. -/
def writeCentres {α : Type _} (used : Bool) (orig : Option (List (List α))) (c : Option (Column α × Column α)) :
    Res (Option (List (List α))) :=
  if used then
    match c with
    | none => .ok none
    | some (cx, cy) => match rejoin cx cy with
      | .error e => .error e
      | .ok rows => .ok (some rows)
  else .ok orig

/-- nc_esmf_unstruct.py:76-95, writing a field read from such a file.  `usedNodes` and `usedCentres` say that the
coordinates have been asked for, so that the variables have been taken apart; otherwise those of the file `f` are still
there.  The connectivity has its start index as an attribute by then (geomc.py:151-156). -/
def writeEsmf {α : Type _} (f : EsmfFile α) (m : EsmfMesh α) (usedNodes usedCentres : Bool) : Res (EsmfFile α) :=
  match m.conn with
  | .rows _ => .error .keyError
  | .ragged counts flat =>
    match (if usedNodes then rejoin m.x m.y else .ok f.nodeCoords) with
    | .error e => .error e
    | .ok nodes => match writeCentres usedCentres f.centerCoords m.centres with
      | .error e => .error e
      | .ok centers => .ok ⟨nodes, counts, flat, some m.start, m.brk, centers, m.mask⟩

end Ocgis.MeshFile
