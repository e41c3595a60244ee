/-!
# Python and numpy primitives

The handful of Python/numpy behaviours the models rely on.  These definitions are part of the
trusted base: they are our reading of the language and of numpy, not of `/repo`.
-/

namespace Ocgis

/-- Exceptions, as values.  One constructor per exception class raised in the modelled code. -/
inductive PyErr where
  | valueError
  | indexError
  | keyError
  | typeError
  | attributeError
  | assertionError
  | notImplemented
  | runtimeError
  | unboundLocal
  | ioError
  | allElementsMasked
  | emptySubset
  | dimensionMapError
  | dimensionNotFound
  | variableInCollection
  | variableNotInCollection
  | subcommNotFound
  | subcommAlreadyCreated
  | definitionValidation
  | emptyObject
  | noTouching
  | incompleteSeason
  | dimensionsRequired
  | dimensionMismatch
  | payloadProtected
  | importError
  | extentError
  | projectionCoordinateNotFound
  deriving DecidableEq, Repr

/-- Results that may raise. -/
abbrev Res (α : Type _) := Except PyErr α

deriving instance DecidableEq for Except

/-- A Python `slice(start, stop)` (step 1).  `none` is Python's `None`. -/
structure PySlice where
  start : Option Int
  stop : Option Int
  deriving DecidableEq, Repr

/-- `slice(None)`. -/
def PySlice.all : PySlice := ⟨none, none⟩

/-- One end of `slice.indices(n)` for step 1: `None` gives the default, a negative value counts from
the end, and the result is clipped to `0..n`. -/
def PySlice.clip (v : Option Int) (dflt : Nat) (n : Nat) : Nat :=
  match v with
  | none => dflt
  | some i => if i < 0 then (i + n).toNat else min i.toNat n

/-- `slice.indices(n)[0]`. -/
def PySlice.lo (s : PySlice) (n : Nat) : Nat := PySlice.clip s.start 0 n

/-- `slice.indices(n)[1]`. -/
def PySlice.hi (s : PySlice) (n : Nat) : Nat := PySlice.clip s.stop n n

/-- `xs[s]` for a list or a one-dimensional array. -/
def PySlice.get {α : Type _} (s : PySlice) (xs : List α) : List α :=
  (xs.drop (s.lo xs.length)).take (s.hi xs.length - s.lo xs.length)

/-- `np.arange(lo, hi)` / `list(range(lo, hi))` on naturals. -/
def rangeFrom (lo hi : Nat) : List Nat := List.range' lo (hi - lo)

/-- `np.array_split(xs, k)`: the first `len % k` sections have `len / k + 1` elements, the others
`len / k`. -/
def arraySplit {α : Type _} (xs : List α) (k : Nat) : List (List α) :=
  let q := xs.length / k
  let r := xs.length % k
  (List.range k).map fun i =>
    let lo := i * q + min i r
    let hi := (i + 1) * q + min (i + 1) r
    (xs.drop lo).take (hi - lo)

/-- numpy fancy indexing of a one-dimensional array by an integer array: negative indices count from the
end, anything out of range is an `IndexError`. -/
def takeInts {α : Type _} (xs : List α) (idx : List Int) : Res (List α) :=
  idx.mapM fun i =>
    let j : Int := if i < 0 then i + xs.length else i
    if j < 0 then .error .indexError
    else match xs[j.toNat]? with
      | some v => .ok v
      | none => .error .indexError

/-- numpy indexing by a boolean array of the same length. -/
def takeBools {α : Type _} : List α → List Bool → List α
  | x :: xs, b :: bs => if b then x :: takeBools xs bs else takeBools xs bs
  | _, _ => []

/-- `np.where(slc)[0]`. -/
def whereTrue : List Bool → Int → List Int
  | [], _ => []
  | b :: bs, i => if b then i :: whereTrue bs (i + 1) else whereTrue bs (i + 1)

/-- The integers `lo, lo+1, ..., hi-1`. -/
def intRange (lo hi : Int) : List Int := (List.range (hi - lo).toNat).map (fun (k : Nat) => lo + (k : Int))

/-- numpy `fill[lo:hi] = part` with `0 ≤ lo, hi`: the slice is clipped to the array; a length mismatch is a
`ValueError`.  (numpy would broadcast a one-element `part`; no modelled caller relies on it.) -/
def assignSlice {α : Type _} (fill : List α) (lo hi : Nat) (part : List α) : Res (List α) :=
  let lo' := min lo fill.length
  let hi' := min hi fill.length
  if hi' - lo' ≠ part.length then .error .valueError
  else .ok (fill.take lo' ++ part ++ fill.drop (max lo' hi'))

end Ocgis
