import Verif.Model.GeomArg

/-! Vocabulary for the statements about the geometry argument. -/

namespace Ocgis.Spec
open Ocgis Ocgis.GeomArg

/-- The geometries of records: one each, or their union if asked for. -/
inductive Gathered (kw : Kw) (gs : List Shape) : List Shape → Prop
  | each (h : kw.union = false) : Gathered kw gs gs
  | union (h : kw.union = true) : Gathered kw gs [.union gs]

/-- What a geometry argument stands for, given the selection arguments. -/
inductive StandsFor (disk : Disk) (kw : Kw) : Input → Value → Prop
  | none : StandsFor disk kw .none .none
  | point (x y : Rat) (gs) (h : Gathered kw [.point x y] gs) : StandsFor disk kw (.numbers [x, y]) (.shapes gs)
  | pointText (t : String) (x y : Rat) (gs) (h : Gathered kw [.point x y] gs) :
      StandsFor disk kw (.numberText t [x, y]) (.shapes gs)
  | box (a b c d : Rat) (gs) (h : Gathered kw [.box a b c d] gs) : StandsFor disk kw (.numbers [a, b, c, d]) (.shapes gs)
  | boxText (t : String) (a b c d : Rat) (gs) (h : Gathered kw [.box a b c d] gs) :
      StandsFor disk kw (.numberText t [a, b, c, d]) (.shapes gs)
  | path (t : String) (h : disk.there t = true) : StandsFor disk kw (.nameText t) (.file ⟨none, some t, kw⟩)
  | key (t : String) (h : disk.there t = false) : StandsFor disk kw (.nameText t) (.file ⟨some t, none, kw⟩)
  | records (gs out) (h : Gathered kw gs out) : StandsFor disk kw (.records gs) (.shapes out)
  | fields (gs) : StandsFor disk kw (.fields gs) (.shapes gs)
  | iterator (it : It) : StandsFor disk kw (.iterator it)
      (.file { it with kw := { it.kw with selectUid := match kw.selectUid with
        | some ids => some ids
        | Option.none => it.kw.selectUid } })

/-- The arguments that are accepted: everything but directories, boxes without width or height, empty lists, and numbers that
are neither two nor four. -/
def acceptable (disk : Disk) : Input → Bool
  | .numberText t xs => !disk.dir t && match xs with
    | [_, _] => true
    | [a, b, c, d] => decide (a ≠ c ∧ b ≠ d)
    | _ => false
  | .nameText t => !disk.dir t
  | .numbers xs => match xs with
    | [_, _] => true
    | [a, b, c, d] => decide (a ≠ c ∧ b ≠ d)
    | _ => false
  | .records gs => !gs.isEmpty
  | _ => true

/-- The accepted geometries of a history of assignments, in order. -/
def accepted (disk : Disk) (as : List Assign) : List Input :=
  as.filterMap fun
    | .geom i => if acceptable disk i then some i else none
    | _ => none

/-- The geometry last accepted. -/
def lastGeom (disk : Disk) (i : Input) (as : List Assign) : Input := (accepted disk as).getLastD i

/-- The identifiers last selected. -/
def lastSelect (v : Option (List Int)) (as : List Assign) : Option (List Int) :=
  (as.filterMap fun
    | .selectUid v => some v
    | _ => none).getLastD v

/-- The assignment is not to the condition, the identifier's name or the aggregation. -/
def Selecting : Assign → Prop
  | .selectUid _ => True
  | .geom _ => True
  | _ => False

/-- Text that is numbers has two or four; an iterator brings no identifiers of its own. -/
def OrdinaryInput : Input → Prop
  | .numberText _ xs => xs.length = 2 ∨ xs.length = 4
  | .iterator it => it.kw.selectUid = none
  | _ => True

/-- What the metadata should say about a geometry. -/
inductive Describes (kw : Kw) : Input → About → Prop
  | none : Describes kw .none .nothing
  | name (t : String) : Describes kw (.nameText t) (.named t)
  | iterator (it : It) (s : String) (h : it.key = some s ∨ it.key = Option.none ∧ it.path = some s) :
      Describes kw (.iterator it) (.named s)
  | text (t : String) (xs : List Rat) : Describes kw (.numberText t xs) (.bounds xs)
  | point (x y : Rat) : Describes kw (.numbers [x, y]) (.bounds [x, y, x, y])
  | box (a b c d : Rat) : Describes kw (.numbers [a, b, c, d]) (.bounds [min a c, min b d, max a c, max b d])
  | records (gs : List Shape) : Describes kw (.records gs) (.count (if kw.union then 1 else gs.length))
  | fields (gs : List Shape) : Describes kw (.fields gs) (.count gs.length)

/-- Files before numbers before other geometries. -/
def standing : Input → Nat
  | .nameText _ => 2
  | .iterator _ => 2
  | .numberText _ _ => 1
  | .numbers _ => 1
  | _ => 0

/-- Text that is numbers has two or four; an iterator has a key or a path. -/
def NamedInput : Input → Prop
  | .numberText _ xs => xs.length = 2 ∨ xs.length = 4
  | .iterator it => it.key ≠ none ∨ it.path ≠ none
  | _ => True

end Ocgis.Spec
