import Verif.Py
/-!
# Opening a netCDF file: its metadata and the raw field made from them

Models `parse_metadata()`/`update_group_metadata()` (driver/nc.py:528-537, 803-812, 821-882), the filter of
`AbstractDriver.get_metadata()` (driver/base.py:441-459), `create_dimensions()`, `create_raw_field()` and `create_variables()`
(driver/base.py:164-182, 333-375), `init_variable_from_source()` (driver/base.py:596-623, 1056-1062), `get_group()`
(util/helpers.py:1277-1309), `AbstractContainer.group` (variable/base.py:88-106) and `init_variable_using_metadata_for_netcdf()`
(driver/nc.py:565-588, 590-602), for one process, without renaming of variables or dimensions and without conversion of units.
Attribute values and data types are opaque.  A dictionary is the list of its items.  Dimensions of a group that none of its
variables has are not in the field (variable/base.py:458-481 adds only those of variables) and are not modelled there.
-/
namespace Ocgis.NcOpen

/-- A hierarchy of groups: something for the group, and the groups in it by name. -/
inductive Tree (β : Type) where
  | mk (node : β) (kids : List (String × Tree β))
  deriving Repr

/-- What is there for the group itself. -/
def Tree.node {β : Type} : Tree β → β
  | .mk b _ => b

/-- The groups in the group. -/
def Tree.kids {β : Type} : Tree β → List (String × Tree β)
  | .mk _ ks => ks

/-- The group at a path. -/
def Tree.get {β : Type} (t : Tree β) : List String → Option (Tree β)
  | [] => some t
  | k :: p => match t.kids.lookup k with
    | none => none
    | some c => c.get p

mutual
/-- Handle a group, then the groups in it in order, each under its name: the recursion of `parse_metadata` (driver/nc.py:533-537)
and of `create_raw_field` (driver/base.py:350-357). -/
def Tree.walk {β γ : Type} (f : Option String → β → Res γ) : Option String → Tree β → Res (Tree γ)
  | n, .mk b ks => match f n b with
    | .error e => .error e
    | .ok c => match walkKids f ks with
      | .error e => .error e
      | .ok cs => .ok (.mk c cs)

/-- The loop over the groups in a group. -/
def walkKids {β γ : Type} (f : Option String → β → Res γ) : List (String × Tree β) → Res (List (String × Tree γ))
  | [] => .ok []
  | (k, t) :: r => match Tree.walk f (some k) t with
    | .error e => .error e
    | .ok u => match walkKids f r with
      | .error e => .error e
      | .ok us => .ok ((k, u) :: us)
end

/-- A loop that ends with the first exception. -/
def each {α β : Type} (f : α → Res β) : List α → Res (List β)
  | [] => .ok []
  | a :: l => match f a with
    | .error e => .error e
    | .ok b => match each f l with
      | .error e => .error e
      | .ok bs => .ok (b :: bs)

/-- A dimension of a file. -/
structure NDim where
  size : Nat
  unlimited : Bool
  deriving DecidableEq, Repr

/-- A variable of a file: the type it is stored with, the type its values have once netCDF4 has applied scale factor and offset, and
whether `variable[0]` can be read. -/
structure NVar where
  dims : List String
  attrs : List (String × String)
  stored : String
  scaled : String
  readable : Bool
  deriving DecidableEq, Repr

/-- A group of a file. -/
structure NNode where
  attrs : List (String × String)
  dims : List (String × NDim)
  vars : List (String × NVar)
  deriving DecidableEq, Repr

/-- A fill value: `'auto'`, the value of an attribute, or NumPy's default for a type. -/
inductive Fill where
  | auto
  | value (v : String)
  | default (t : String)
  deriving DecidableEq, Repr

/-- The metadata of a variable (driver/nc.py:868-874). -/
structure VMeta where
  dims : List String
  attrs : List (String × String)
  dtype : String
  fill : Fill
  packed : Option String
  packedFill : Option Fill
  deriving DecidableEq, Repr

/-- The metadata of a group. -/
structure MNode where
  attrs : List (String × String)
  dims : List (String × NDim)
  vars : List (String × VMeta)
  deriving DecidableEq, Repr

/-- driver/nc.py:843-853. -/
def fillOf (v : NVar) : Fill :=
  match v.attrs.lookup "_FillValue" with
  | some x => .value x
  | none => match v.attrs.lookup "fill_value" with
    | some x => .value x
    | none => match v.attrs.lookup "missing_value" with
      | some x => .value x
      | none => .auto

/-- The body of the loop over variables (driver/nc.py:830-874). -/
def parseVar (e : String × NVar) : Res (String × VMeta) :=
  let v := e.2
  if (v.attrs.lookup "scale_factor").isSome then
    if v.readable then .ok (e.1, ⟨v.dims, v.attrs, v.stored, fillOf v, some v.scaled, some (.default v.scaled)⟩)
    else .error .indexError
  else .ok (e.1, ⟨v.dims, v.attrs, v.stored, fillOf v, none, none⟩)

/-- `update_group_metadata` (driver/nc.py:821-882). -/
def parseNode (b : NNode) : Res MNode :=
  match each parseVar b.vars with
  | .error e => .error e
  | .ok vs => .ok ⟨b.attrs, b.dims, vs⟩

/-- `parse_metadata` (driver/nc.py:528-537). -/
def parse (t : Tree NNode) : Res (Tree MNode) := t.walk (fun _ => parseNode) none

/-- `get_metadata` (driver/base.py:446-459): the predicate filters the variables of the root. -/
def filterRoot (pred : String → Bool) (t : Tree MNode) : Tree MNode :=
  .mk { t.node with vars := t.node.vars.filter fun e => pred e.1 } t.kids

/-- A dimension of a field. -/
structure FDim where
  name : String
  size : Option Nat
  cur : Option Nat
  deriving DecidableEq, Repr

/-- `create_dimensions` (driver/base.py:174-181) with `set_size` (variable/dimension.py:367-389). -/
def makeDim (n : String) (d : NDim) : FDim :=
  if d.unlimited then ⟨n, none, some d.size⟩ else ⟨n, some d.size, some d.size⟩

/-- A variable of a field. -/
structure FVar where
  dims : List FDim
  attrs : List (String × String)
  dtype : String
  fill : Fill
  deriving DecidableEq, Repr

/-- A field without its children. -/
structure FNode where
  attrs : List (String × String)
  vars : List (String × FVar)
  deriving DecidableEq, Repr

/-- `get_group(metadata, variable.group, has_root=False)` (util/helpers.py:1277-1309) while a field is created: the field has no
parent then (driver/base.py:350-354), so that `variable.group` is the source name of the field only (variable/base.py:95-105). -/
def groupOf (root : Tree MNode) : Option String → Res MNode
  | none => .ok root.node
  | some k => match root.kids.lookup k with
    | none => .error .keyError
    | some g => .ok g.node

/-- `dist.get_dimension` (driver/base.py:608, vmachine/mpi.py:245-252). -/
def findDim (g : MNode) (d : String) : Res FDim :=
  match g.dims.lookup d with
  | none => .error .dimensionNotFound
  | some x => .ok (makeDim d x)

/-- The creation of one variable (driver/base.py:369-374): metadata (driver/base.py:1056-1062; `VariableMissingMetadataError` is
`variableNotInCollection` here), dimensions (driver/base.py:604-618, variable/base.py:479-480), type, fill value and attributes
(driver/nc.py:574-598). -/
def initVar (root : Tree MNode) (src : Option String) (e : String × VMeta) : Res (String × FVar) :=
  match groupOf root src with
  | .error x => .error x
  | .ok g => match g.vars.lookup e.1 with
    | none => .error .variableNotInCollection
    | some m => match each (findDim g) m.dims with
      | .error x => .error x
      | .ok ds =>
        if m.dims.Nodup then
          .ok (e.1, ⟨ds, m.attrs.filter fun a => !["add_offset", "scale_factor"].contains a.1, m.packed.getD e.2.dtype,
            m.packedFill.getD m.fill⟩)
        else .error .valueError

/-- The field of a group (driver/base.py:350-352). -/
def createNode (root : Tree MNode) (src : Option String) (b : MNode) : Res FNode :=
  match each (initVar root src) b.vars with
  | .error e => .error e
  | .ok vs => .ok ⟨b.attrs, vs⟩

/-- `create_raw_field` (driver/base.py:333-357) for the root: `src` is the source name of the field, `None` unless a name is given
(base.py:74-78; `create_field` always gives `None`, driver/base.py:252). -/
def createRaw (src : Option String) (root : Tree MNode) : Res (Tree FNode) := root.walk (createNode root) src

/-- `RequestDataset(uri, predicate=pred).create_raw_field(name=src)`. -/
def openFile (pred : String → Bool) (src : Option String) (t : Tree NNode) : Res (Tree FNode) :=
  match parse t with
  | .error e => .error e
  | .ok m => createRaw src (filterRoot pred m)

end Ocgis.NcOpen
