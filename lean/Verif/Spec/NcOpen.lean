import Verif.Model.NcOpen
import Mathlib.Data.List.Forall2
/-!
# What should be in metadata and fields of a netCDF file
-/
namespace Ocgis.Spec
open Ocgis.NcOpen

/-- The two hierarchies have the same groups in the same order, and what is at each path is related. -/
def SameGroups {β γ : Type} (R : List String → β → γ → Prop) (t : Tree β) (u : Tree γ) : Prop :=
  ∀ p, (t.get p = none ∧ u.get p = none) ∨
    ∃ a b, t.get p = some a ∧ u.get p = some b ∧ a.kids.map Prod.fst = b.kids.map Prod.fst ∧ R p a.node b.node

/-- netCDF4 applies a scale factor. -/
def HasScale (v : NVar) : Prop := ∃ x, ("scale_factor", x) ∈ v.attrs

/-- netCDF4 adds an offset. -/
def HasOffset (v : NVar) : Prop := ∃ x, ("add_offset", x) ∈ v.attrs

/-- The type of the values netCDF4 returns. -/
def ReadType (v : NVar) (t : String) : Prop :=
  ((HasScale v ∨ HasOffset v) → t = v.scaled) ∧ (¬ HasScale v → ¬ HasOffset v → t = v.stored)

/-- The value is the one the variable marks missing values with: by `_FillValue`, else by `fill_value`, else by `missing_value`. -/
def MissingMark (v : NVar) (x : String) : Prop :=
  v.attrs.lookup "_FillValue" = some x ∨
  v.attrs.lookup "_FillValue" = none ∧ (v.attrs.lookup "fill_value" = some x ∨
    v.attrs.lookup "fill_value" = none ∧ v.attrs.lookup "missing_value" = some x)

/-- The fill value is that of the variable, or left open if it marks none. -/
def FillIs (v : NVar) (f : Fill) : Prop :=
  (∃ x, MissingMark v x ∧ f = .value x) ∨ ((∀ x, ¬ MissingMark v x) ∧ f = .auto)

/-- The metadata tell everything about the variable. -/
def VarMeta (v : NVar) (m : VMeta) : Prop :=
  m.dims = v.dims ∧ m.attrs = v.attrs ∧ m.dtype = v.stored ∧ FillIs v m.fill ∧
  (HasScale v → m.packed = some v.scaled ∧ m.packedFill = some (.default v.scaled)) ∧
  (¬ HasScale v → m.packed = none ∧ m.packedFill = none)

/-- The metadata tell everything about the group. -/
def GroupMeta (b : NNode) (m : MNode) : Prop :=
  m.attrs = b.attrs ∧ m.dims = b.dims ∧ List.Forall₂ (fun x y => x.1 = y.1 ∧ VarMeta x.2 y.2) b.vars m.vars

/-- The field has the dimension as the file has it. -/
def DimIs (b : NNode) (n : String) (d : FDim) : Prop :=
  d.name = n ∧ ∃ x, (n, x) ∈ b.dims ∧ d.cur = some x.size ∧ (x.unlimited = true → d.size = none) ∧
    (x.unlimited = false → d.size = some x.size)

/-- The field has the variable as the file has it; what concerns packing is left out. -/
def VarIs (b : NNode) (v : NVar) (f : FVar) : Prop :=
  List.Forall₂ (DimIs b) v.dims f.dims ∧
  f.attrs = v.attrs.filter (fun a => a.1 ≠ "add_offset" ∧ a.1 ≠ "scale_factor") ∧
  (HasScale v → f.dtype = v.scaled ∧ f.fill = .default v.scaled) ∧
  (¬ HasScale v → f.dtype = v.stored ∧ FillIs v f.fill)

/-- The field has the attributes of the group, and those of its variables that are wanted. -/
def GroupIs (want : String → Bool) (b : NNode) (f : FNode) : Prop :=
  f.attrs = b.attrs ∧ List.Forall₂ (fun x y => x.1 = y.1 ∧ VarIs b x.2 y.2) (b.vars.filter fun e => want e.1) f.vars

/-- Names are unique, as they are in every netCDF file. -/
def ProperFile (t : Tree NNode) : Prop :=
  ∀ p c, t.get p = some c → (c.kids.map Prod.fst).Nodup ∧ (c.node.vars.map Prod.fst).Nodup ∧ (c.node.dims.map Prod.fst).Nodup ∧
    ∀ e ∈ c.node.vars, (e.2.attrs.map Prod.fst).Nodup

/-- The first element of every scaled variable can be read. -/
def ScaledReadable (t : Tree NNode) : Prop :=
  ∀ p c, t.get p = some c → ∀ e ∈ c.node.vars, HasScale e.2 → e.2.readable = true

/-- Variables have different dimensions, of their own group, and there are none in groups of groups. -/
def PlainFile (t : Tree NNode) : Prop :=
  ∀ p c, t.get p = some c → (2 ≤ p.length → c.node.vars = []) ∧
    ∀ e ∈ c.node.vars, e.2.dims.Nodup ∧ ∀ d ∈ e.2.dims, ∃ x, (d, x) ∈ c.node.dims

end Ocgis.Spec
