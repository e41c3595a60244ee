import Verif.Model.Geomc
import Verif.Model.Reindex

/-!
# Slicing and reducing an unstructured mesh

`AbstractGeometryCoordinates.__getitem__`, `cindex`, `start_index`, `multi_break_value` and `reduce_global` in
`src/ocgis/spatial/geomc.py`, on one process.  A node is one value of type `α`: its values of all variables along
the node dimension.  The exchange between several processes is the subject of `Verif/Model/Reindex.lean`.
-/

namespace Ocgis.MeshReduce
open Ocgis Ocgis.Geomc Ocgis.Reindex Ocgis.Comm

/-- A polygon (or line) coordinates object with its parent (geomc.py:47-111).  `objects` says that the connectivity is
an array of arrays, as `convert_to` creates it by default (variable/geom.py:568-576).  `startAttr` and `breakAttr` are the
attributes of the connectivity variable; the setter always leaves the first (geomc.py:151-156).  `given` is the
`start_index` argument, `none` standing for `'auto'`.  `driverStart` is the driver's default, 0 (driver/base.py:916)
or 1 for ESMF unstructured files (driver/nc_esmf_unstruct.py:18).  Simplified: the object has a connectivity (without
one `reduce_global` is a `ValueError`, geomc.py:652-653) and integer values are not masked. -/
structure Mesh (α : Type _) where
  nodes : List α
  conn : Conn
  objects : Bool
  startAttr : Int
  breakAttr : Option Int
  given : Option Int
  driverStart : Int
  mask : List Bool

/-- geomc.py:234-251, `start_index`. -/
def Mesh.start {α : Type _} (m : Mesh α) : Int :=
  match m.given with
  | none => m.startAttr
  | some s => s

/-- geomc.py:304-415, the shapes handed out by the first complete iteration, `None` for a masked element. -/
def Mesh.shapes {α : Type _} (m : Mesh α) : Res (List (Option (List (List α)))) :=
  match readAll m.start m.breakAttr m.nodes m.mask m.conn with
  | .ok (gs, _) => .ok gs
  | .error e => .error e

/-- The values of the connectivity in the order of `flatten` (geomc.py:904-907). -/
def connValues : Conn → List Int
  | .rows rs => rs.flatten
  | .ragged _ flat => flat

/-- geomc.py:986, `reshape(*original_shape)` on the rows. -/
def reshapeRows : List (List Int) → List Int → List (List Int)
  | [], _ => []
  | r :: rs, vs => vs.take r.length :: reshapeRows rs (vs.drop r.length)

/-- geomc.py:986, `reshape(*original_shape)`; the flat ESMF array has one dimension. -/
def reshapeConn : Conn → List Int → Conn
  | .rows rs, vs => .rows (reshapeRows rs vs)
  | .ragged counts _, vs => .ragged counts vs

/-- The positions at which the elements are picked by an index array or slice. -/
def pickAt {β : Type _} (xs : List β) (is : List Nat) : List β := is.filterMap fun i => xs[i]?

/-- geomc.py:113-120, `__getitem__` with a slice of the element dimension: every variable of the parent having that
dimension is sliced.  In the ESMF layout the flat connectivity has a dimension of its own
(driver/nc_esmf_unstruct.py:155-157, 172-177), so only the counts are sliced.  Simplified: positions are within the elements. -/
def Mesh.slice {α : Type _} (m : Mesh α) (is : List Nat) : Mesh α :=
  { m with
    conn := match m.conn with
      | .rows rs => .rows (pickAt rs is)
      | .ragged counts flat => .ragged (pickAt counts is) flat
    mask := pickAt m.mask is }

/-- geomc.py:140-156, the setter of `cindex` for a variable whose attributes are `attr` (its start index, if any) and
`brk` (its break value, if any). -/
def Mesh.setConn {α : Type _} (m : Mesh α) (c : Conn) (attr brk : Option Int) : Mesh α :=
  { m with
    conn := c
    startAttr := match attr with
      | some a => a
      | none => match m.given with
        | none => m.driverStart
        | some s => s
    breakAttr := brk }

/-- geomc.py:662-664, the positions of the kept nodes. -/
def keptPositions (start : Int) (u : List Int) : List Int := if start = 1 then u.map (· - 1) else u

/-- geomc.py:642-674, `reduce_global`.  On arrays of arrays `np.unique` (geomc.py:914) cannot order two elements, and
a single one cannot be a dictionary key (geomc.py:934).  The new connectivity variable is created without attributes
(geomc.py:659). -/
def reduceGlobal {α : Type _} (m : Mesh α) : Res (Mesh α) :=
  if m.objects ∧ m.conn.size ≠ 0 then
    if m.conn.size = 1 then .error .typeError else .error .valueError
  else
    match reindexSerial (connValues m.conn) m.start with
    | .error e => .error e
    | .ok (out, u) => match takeInts m.nodes (keptPositions m.start u) with
      | .error e => .error e
      | .ok kept => .ok ({ m with nodes := kept }.setConn (reshapeConn m.conn out) none none)

end Ocgis.MeshReduce
