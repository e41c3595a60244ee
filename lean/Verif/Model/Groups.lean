import Verif.Py

/-!
# Group hierarchies of metadata dictionaries

`src/ocgis/util/helpers.py:1277-1315` and `src/ocgis/driver/base.py:1065-1080`.
-/

namespace Ocgis.Groups
open Ocgis

/-- The metadata dictionary of one group: its contents apart from the key `groups` (an opaque value `data`) and
the dictionary under the key `groups`, in order.  A missing key `groups` and an empty dictionary under it are not
distinguished: helpers.py:1301-1308 raises `KeyError` for both and driver/base.py:1077 defaults one to the other. -/
inductive G (α : Type) where
  | mk (data : α) (groups : List (String × G α))

/-- The contents of a group. -/
def G.data {α : Type} : G α → α | .mk d _ => d

/-- The dictionary under the key `groups`. -/
def G.groups {α : Type} : G α → List (String × G α) | .mk _ gs => gs

/-- `dct[key]`, the value of the first item with the key. -/
def lookup {α : Type} (gs : List (String × G α)) (k : String) : Option (G α) :=
  (gs.find? fun c => c.1 == k).map (·.2)

/-- `dct[key] = value`. -/
def assign {α : Type} : List (String × G α) → String → G α → List (String × G α)
  | [], k, g => [(k, g)]
  | c :: cs, k, g => if c.1 = k then (k, g) :: cs else c :: assign cs k g

/-- The argument `keyseq` of helpers.py:1277: `None`, one name, or a list of names and `None`s. -/
inductive KeySeq where
  | none
  | name (s : String)
  | keys (ks : List (Option String))

/-- helpers.py:1278-1289, the normalised sequence of keys. -/
def normalise : KeySeq → Res (List (Option String))
  | .none => .ok [Option.none]
  | .name s => .ok [Option.none, some s]
  | .keys [] => .error .indexError
  | .keys (Option.none :: ks) => .ok (Option.none :: ks)
  | .keys (some s :: ks) => .ok (Option.none :: some s :: ks)

/-- helpers.py:1293-1308 below the root with `create=False` and `has_root=True`: a further `None` looks for a key
`None` in a group's dictionary, which has none. -/
def descend {α : Type} : G α → List (Option String) → Res (G α)
  | g, [] => .ok g
  | _, Option.none :: _ => .error .keyError
  | g, some k :: ks =>
    match lookup g.groups k with
    | some c => descend c ks
    | Option.none => .error .keyError

/-- helpers.py:1277-1309, `get_group(ddict, keyseq)` for `ddict = {None: root}`. -/
def getGroup {α : Type} (root : G α) (keyseq : KeySeq) : Res (G α) :=
  match normalise keyseq with
  | .error e => .error e
  | .ok ks => descend root (ks.drop 1)

/-- helpers.py:1297-1306, `create=True`: the tree after the call, for a path of names below the current group.
`empty` is the new `{}` of an intermediate group. -/
def create {α : Type} (empty : α) (last : G α) : G α → List String → G α
  | g, [] => g
  | .mk d gs, k :: ks =>
    .mk d (assign gs k (create empty last ((lookup gs k).getD (if ks = [] then last else .mk empty [])) ks))

/-- driver/base.py:1076-1080, `iter_group_keys`. -/
def groupKeys {α : Type} (root : G α) (keyseq : List (Option String)) : Res (List (List (Option String))) :=
  match getGroup root (.keys keyseq) with
  | .error e => .error e
  | .ok g => .ok (g.groups.map fun c => keyseq ++ [some c.1])

/-- driver/base.py:1065-1073, `iter_all_group_keys(ddict, entry)` as the list of what it yields.  The first
argument bounds the depth of recursion, as the interpreter does. -/
def iterAll {α : Type} : Nat → G α → List (Option String) → Res (List (List (Option String)))
  | 0, _, _ => .error .runtimeError
  | n + 1, root, entry =>
    match groupKeys root entry with
    | .error e => .error e
    | .ok keys =>
      match keys.mapM (iterAll n root) with
      | .error e => .error e
      | .ok subs => .ok (entry :: subs.flatten)

/-- driver/base.py:1065-1069, the first call: `entry=None`. -/
def iterAllGroupKeys {α : Type} (depth : Nat) (root : G α) : Res (List (List (Option String))) :=
  iterAll depth root [Option.none]

end Ocgis.Groups
