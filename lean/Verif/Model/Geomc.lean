import Verif.Py

/-!
# Unstructured element connectivity

`src/ocgis/spatial/geomc.py` (reading elements) and the polygon branch of `convert_to` in
`src/ocgis/variable/geom.py` (writing them).  A node is one value of type `α` (its coordinate tuple), a
ring is a list of nodes without the closing repetition, and a geometry is a list of rings (one ring for a
single-part polygon).  Shapely itself is not modelled: a geometry *is* its rings.
-/

namespace Ocgis.Geomc
open Ocgis

/-- geomc.py:857, `np.where(arr == mbv)[0]`, counting positions from `i`. -/
def breakPositions (mbv : Int) : List Int → Nat → List Nat
  | [], _ => []
  | a :: as, i => if a = mbv then i :: breakPositions mbv as (i + 1) else breakPositions mbv as (i + 1)

/-- geomc.py:858-865, the loop over the break positions: `slice(start, iw)` then `start = iw + 1`. -/
def partsFrom {β : Type _} (arr : List β) : Nat → List Nat → List (List β)
  | _, [] => []
  | start, iw :: ws => (arr.drop start).take (iw - start) :: partsFrom arr (iw + 1) ws

/-- geomc.py:848-865, `iter_multipart_coordinates`. -/
def iterMultipart (arr : List Int) (mbv : Int) : List (List Int) :=
  partsFrom arr 0 (breakPositions mbv arr 0 ++ [arr.length])

/-- geomc.py:749-753, start of the nodes of element `idx` in an ESMF flat connectivity. -/
def raggedStart (counts : List Nat) (idx : Nat) : Nat := if idx = 0 then 0 else (counts.take idx).sum

/-- geomc.py:754, end of the nodes of element `idx`. -/
def raggedStop (counts : List Nat) (idx : Nat) : Nat := (counts.take (idx + 1)).sum

/-- geomc.py:755, `element_connectivity[start:stop]`. -/
def raggedNodes (counts : List Nat) (flat : List Int) (idx : Nat) : List Int :=
  (flat.drop (raggedStart counts idx)).take (raggedStop counts idx - raggedStart counts idx)

/-- How a driver stores the element connectivity: one row (or object) per element, or the ESMF
unstructured layout with a count per element and one flat array. -/
inductive Conn where
  | rows (rs : List (List Int))
  | ragged (counts : List Nat) (flat : List Int)
  deriving DecidableEq, Repr

/-- geomc.py:369, `len(self.element_dim)`. -/
def Conn.size : Conn → Nat
  | .rows rs => rs.length
  | .ragged counts _ => counts.length

/-- geomc.py:744-760, `PolygonGC.get_element_node_connectivity_by_index`. -/
def elementNodes (c : Conn) (idx : Nat) : Res (List Int) :=
  match c with
  | .rows rs => match rs[idx]? with
    | some r => .ok r
    | none => .error .indexError
  | .ragged counts flat => .ok (raggedNodes counts flat idx)

/-- Replace the values `start..start + |vs|` of a list: the effect of an in-place numpy operation on the
view `arr[start:stop]`. -/
def overwrite (flat : List Int) (start : Nat) (vs : List Int) : List Int :=
  flat.take start ++ vs ++ flat.drop (start + vs.length)

/-- geomc.py:379, the effect of `ec_idx -= start_index` on the stored array.  `flatten()` returned a copy
for the row layout (geomc.py:757-759), so nothing is stored; the ESMF layout hands out a view
(geomc.py:755), so the subtraction is written through. -/
def storeNodes (c : Conn) (idx : Nat) (vs : List Int) : Conn :=
  match c with
  | .rows rs => .rows rs
  | .ragged counts flat => .ragged counts (overwrite flat (raggedStart counts idx) vs)

/-- geomc.py:378-379, the zero-based node numbers of an element. -/
def zeroBased (si : Int) (ec : List Int) : List Int := if 0 < si then ec.map (· - si) else ec

/-- geomc.py:378-379, the connectivity after the element was read. -/
def afterRead (si : Int) (c : Conn) (idx : Nat) (ec : List Int) : Conn :=
  if 0 < si then storeNodes c idx (zeroBased si ec) else c

/-- geomc.py:384-387, the parts of an element. -/
def elementParts (mbv : Option Int) (ec : List Int) : List (List Int) :=
  match mbv with
  | none => [ec]
  | some b => iterMultipart ec b

/-- geomc.py:375-410, the geometry of one unmasked element and the connectivity afterwards. -/
def readElement {α : Type _} (si : Int) (mbv : Option Int) (nodes : List α) (c : Conn) (idx : Nat) :
    Res (List (List α) × Conn) :=
  match elementNodes c idx with
  | .error e => .error e
  | .ok ec => match (elementParts mbv (zeroBased si ec)).mapM (takeInts nodes) with
    | .error e => .error e
    | .ok g => .ok (g, afterRead si c idx ec)

/-- geomc.py:369-415, the body of `get_geometry_iterable` over the element numbers a consumer draws from the
generator: `None` for a masked element, otherwise its geometry. -/
def readLoop {α : Type _} (si : Int) (mbv : Option Int) (nodes : List α) (mask : List Bool) :
    List Nat → Conn → Res (List (Option (List (List α))) × Conn)
  | [], c => .ok ([], c)
  | idx :: rest, c =>
    if mask.getD idx false then
      match readLoop si mbv nodes mask rest c with
      | .error e => .error e
      | .ok (gs, c') => .ok (none :: gs, c')
    else
      match readElement si mbv nodes c idx with
      | .error e => .error e
      | .ok (g, c1) => match readLoop si mbv nodes mask rest c1 with
        | .error e => .error e
        | .ok (gs, c') => .ok (some g :: gs, c')

/-- geomc.py:304-415, `get_geometry_iterable` exhausted. -/
def readAll {α : Type _} (si : Int) (mbv : Option Int) (nodes : List α) (mask : List Bool) (c : Conn) :
    Res (List (Option (List (List α))) × Conn) :=
  readLoop si mbv nodes mask (List.range c.size) c

/-- Any number of exhausted iterations one after the other over the same object. -/
def readTimes {α : Type _} (si : Int) (mbv : Option Int) (nodes : List α) (mask : List Bool) :
    Nat → Conn → Res (List (List (Option (List (List α)))) × Conn)
  | 0, c => .ok ([], c)
  | k + 1, c => match readAll si mbv nodes mask c with
    | .error e => .error e
    | .ok (gs, c1) => match readTimes si mbv nodes mask k c1 with
      | .error e => .error e
      | .ok (gss, c') => .ok (gs :: gss, c')

/-! ## Writing elements: `GeometryVariable.convert_to(GEOMETRY_COORDS)` -/

/-- util/helpers.py:1318-1348, `find_index`: the first node equal in every coordinate. -/
def findNode {α : Type _} [DecidableEq α] (nodes : List α) (a : α) : Option Nat := nodes.idxOf? a

/-- variable/geom.py:535-547, one node of a packed ring: reuse the stored node or append it.  `cidx` is the
next number, `start_index` plus the number of stored nodes. -/
def packNode {α : Type _} [DecidableEq α] (si : Int) (nodes : List α) (cidx : Int) (a : α) :
    List α × Int × Int :=
  match findNode nodes a with
  | none => (nodes ++ [a], cidx + 1, cidx)
  | some k => (nodes, cidx, (k : Int) + si)

/-- variable/geom.py:532-548, a packed ring. -/
def packRing {α : Type _} [DecidableEq α] (si : Int) : List α → List α → Int → List α × Int × List Int
  | [], nodes, cidx => (nodes, cidx, [])
  | a :: as, nodes, cidx =>
    let r := packNode si nodes cidx a
    let rest := packRing si as r.1 r.2.1
    (rest.1, rest.2.1, r.2.2 :: rest.2.2)

/-- variable/geom.py:549-556, an unpacked ring: consecutive new numbers. -/
def plainRing {α : Type _} (ring : List α) (nodes : List α) (cidx : Int) : List α × Int × List Int :=
  (nodes ++ ring, cidx + ring.length, intRange cidx (cidx + ring.length))

/-- variable/geom.py:532-556, a ring written packed or not. -/
def writeRing {α : Type _} [DecidableEq α] (pack : Bool) (si : Int) (ring : List α) (nodes : List α)
    (cidx : Int) : List α × Int × List Int :=
  if pack then packRing si ring nodes cidx else plainRing ring nodes cidx

/-- variable/geom.py:519-523, the break value placed before every part but the first. -/
def breakBefore (mbv : Int) (first : Bool) : List Int := if first then [] else [mbv]

/-- variable/geom.py:517-556, the parts of one geometry, `first` telling whether this is part zero. -/
def writeParts {α : Type _} [DecidableEq α] (pack : Bool) (si mbv : Int) :
    Bool → List (List α) → List α → Int → List α × Int × List Int
  | _, [], nodes, cidx => (nodes, cidx, [])
  | first, ring :: rings, nodes, cidx =>
    let r := writeRing pack si ring nodes cidx
    let rest := writeParts pack si mbv false rings r.1 r.2.1
    (rest.1, rest.2.1, breakBefore mbv first ++ r.2.2 ++ rest.2.2)

/-- variable/geom.py:470-561, the loop over the geometries: node coordinates and one connectivity row per
geometry.  Orientation, splitting of interiors, self-intersections, node thresholds, coordinate
transformation and the fixed-width layout (`max_element_coords`) are not modelled. -/
def writeGeoms {α : Type _} [DecidableEq α] (pack : Bool) (si mbv : Int) :
    List (List (List α)) → List α → Int → List α × List (List Int)
  | [], nodes, _ => (nodes, [])
  | g :: gs, nodes, cidx =>
    let r := writeParts pack si mbv true g nodes cidx
    let rest := writeGeoms pack si mbv gs r.1 r.2.1
    (rest.1, r.2.2 :: rest.2)

/-- variable/geom.py:458-561, starting with no nodes and `cidx = start_index`. -/
def toCoords {α : Type _} [DecidableEq α] (pack : Bool) (si mbv : Int) (gs : List (List (List α))) :
    List α × List (List Int) :=
  writeGeoms pack si mbv gs [] si

/-! ## Flattening to the ESMF layout: `driver/nc_esmf_unstruct.py` -/

/-- nc_esmf_unstruct.py:139-148, one element's numbers on a rank shifted by `adjust`, break values restored.
(The serial branch does not shift: `adjust = 0`.) -/
def shiftElement (mbv : Option Int) (adjust : Int) (ii : List Int) : List Int :=
  ii.map fun v => if some v = mbv then v else v + adjust

/-- nc_esmf_unstruct.py:116-119 and 139-151, a rank's counts and flat connectivity. -/
def flattenRank (mbv : Option Int) (adjust : Int) (elements : List (List Int)) : List Nat × List Int :=
  (elements.map List.length, (elements.map (shiftElement mbv adjust)).flatten)

/-- nc_esmf_unstruct.py:127, the largest number in a rank's connectivity (`ii.max()` per element, then
`max`); an element or a rank without numbers raises. -/
def maxIndex (elements : List (List Int)) : Option Int :=
  match elements.mapM List.max? with
  | none => none
  | some ms => ms.max?

/-- nc_esmf_unstruct.py:128-135, the chain of `isend`/`irecv`: rank 0 uses 0, rank `r` gets what rank `r - 1`
sends, the largest number plus one plus what that rank received itself. -/
def adjustChain : List Int → Int → List Int
  | [], _ => []
  | m :: ms, a => a :: adjustChain ms (m + 1 + a)

/-- nc_esmf_unstruct.py:126-135 and 140, the shift every rank applies (none in a serial run). -/
def adjustments (ranks : List (List (List Int))) : Res (List Int) :=
  if ranks.length ≤ 1 then .ok (ranks.map fun _ => 0)
  else match ranks.mapM maxIndex with
    | none => .error .valueError
    | some ms => .ok (adjustChain ms 0)

/-- nc_esmf_unstruct.py:112-151 on all ranks: the counts and the flat connectivity as they stand in the file,
rank after rank. -/
def toEsmf (mbv : Option Int) (ranks : List (List (List Int))) : Res (List Nat × List Int) :=
  match adjustments ranks with
  | .error e => .error e
  | .ok adj =>
    let parts := List.zipWith (flattenRank mbv) adj ranks
    .ok ((parts.map Prod.fst).flatten, (parts.map Prod.snd).flatten)

end Ocgis.Geomc
