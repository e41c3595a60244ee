import Verif.Model.NcWrite
import Mathlib.Data.List.Forall2

/-! Vocabulary for the statements about writing netCDF files. -/

namespace Ocgis.Spec
open Ocgis Ocgis.NcWrite

/-- No rank has anything left to do. -/
def Finished {α : Type} (s : State α) : Prop := ∀ p ∈ s.progs, p = []

/-- How much the ranks have yet to do. -/
def remaining {α : Type} (s : State α) : Nat := (s.progs.map List.length).sum

/-- A position inside an array. -/
def PosIn (shape ix : List Nat) : Prop := ix.length = shape.length ∧ ∀ (k i n : Nat), ix[k]? = some i → shape[k]? = some n → i < n

/-- The rank that has the part also has the position `ix` of the whole. -/
def HasPos {α : Type} (p : Piece α) (ix : List Nat) : Prop :=
  ix.length = p.dims.length ∧
  ∀ (k i : Nat) d, ix[k]? = some i → p.dims[k]? = some d → d.boundsLocal.1 ≤ (i : Int) ∧ (i : Int) < d.boundsLocal.2

/-- A position of a part as a position of the whole. -/
def shifted {α : Type} (p : Piece α) (ix : List Nat) : List Nat :=
  p.dims.zipWith (fun d i => d.boundsLocal.1.toNat + i) ix

/-- The part of a dimension. -/
structure DimPart (D d : Dim) : Prop where
  name : d.name = D.name
  unlimited : d.size = none ↔ D.size = none
  full : d.boundsGlobal = (0, D.len)
  low : 0 ≤ d.boundsLocal.1
  high : d.boundsLocal.2 ≤ D.len
  len : d.boundsLocal.2 - d.boundsLocal.1 = d.len
  pos : 0 < d.len
  live : d.isEmpty = false

/-- `p` is a rank's part of the variable `W`. -/
structure PartOf {α : Type} (W p : Piece α) : Prop where
  name : p.name = W.name
  kind : p.kind = W.kind
  fill : p.fill = W.fill
  fillAttr : p.fillAttr = W.fillAttr
  attrs : p.attrs = W.attrs
  dims : List.Forall₂ DimPart W.dims p.dims
  noValue : p.value = none ↔ W.value = none
  value : ∀ a A, p.value = some a → W.value = some A →
    a.shape = p.shape ∧ ∀ ix, PosIn p.shape ix → a.elem ix = A.elem (shifted p ix)
  noMask : p.mask = none ↔ W.mask = none
  mask : ∀ m M, p.mask = some m → W.mask = some M → ∀ ix, PosIn p.shape ix → m ix = M (shifted p ix)

/-- The ranks' collections are parts of one collection: every rank has a part of every variable, and every element is on some rank.
One process that has everything has such a part too. -/
structure SplitOf {α : Type} (whole : Coll α) (colls : List (Coll α)) : Prop where
  attrs : ∀ c ∈ colls, c.attrs = whole.attrs
  parts : ∀ c ∈ colls, List.Forall₂ PartOf whole.pieces c.pieces
  cover : ∀ W ∈ whole.pieces, ∀ ix, PosIn W.shape ix → ∃ c ∈ colls, ∃ p ∈ c.pieces, p.name = W.name ∧ HasPos p ix

/-- A collection: names are different, equally named dimensions are equally long and both unlimited or not. -/
structure SoundColl {α : Type} (whole : Coll α) : Prop where
  names : (whole.pieces.map Piece.name).Nodup
  dims : ∀ V ∈ whole.pieces, ∀ W ∈ whole.pieces, ∀ d ∈ V.dims, ∀ e ∈ W.dims, d.name = e.name → d.len = e.len ∧ (d.size = none ↔ e.size = none)

/-- Some element of a variable is masked. -/
def SomeMasked {α : Type} (p : Piece α) : Prop := ∃ m, p.mask = some m ∧ ∃ ix, PosIn p.shape ix ∧ m ix = true

/-- The file holds the variable: dimensions of that name and length, and every element, masked ones as the fill value. -/
def FileHolds {α : Type} (dflt : α) (f : NcFile α) (W : Piece α) : Prop :=
  (∀ d ∈ W.dims, f.dims.lookup d.name = some (if d.size = none then none else some d.len.toNat)) ∧
  ∃ nv, f.vars.lookup W.name = some nv ∧ nv.dims = W.dims.map Dim.name ∧ nv.attrs = W.attrs ∧
    ∀ A, W.value = some A → W.kind = .plain →
      (∀ d ∈ W.dims, f.extent d.name = d.len.toNat) ∧
      ∀ ix, PosIn W.shape ix →
        ((∀ M, W.mask = some M → M ix = false) → nv.data ix = A.elem ix) ∧
        (∀ M, W.mask = some M → M ix = true → nv.data ix = nv.fill.getD dflt)

/-- Nothing has been stored in the variables of the file. -/
def OnlyStructure {α : Type} (dflt : α) (f : NcFile α) : Prop := ∀ x ∈ f.vars, ∀ ix, x.2.data ix = x.2.fill.getD dflt

end Ocgis.Spec
