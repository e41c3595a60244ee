import Verif.Py
/-!
# `vmachine/mpi.py`: decomposition arithmetic
-/
namespace Ocgis.Mpi

/-- The final `else` block of `get_rank_bounds`, with the split size known
(vmachine/mpi.py:500-522). -/
def rankBoundsSplit (n rank esplit : Nat) : Option (Nat × Nat) :=
  let lbound := if rank = 0 then 0 else rank * esplit
  let ubound := lbound + esplit
  let ubound := if ubound ≥ n then n else ubound
  if lbound ≥ ubound then none else some (lbound, ubound)

/-- `int(np.ceil(float(n) / float(size)))` for `0 < size` (vmachine/mpi.py:502), on naturals. -/
def ceilDiv (n size : Nat) : Nat := (n + size - 1) / size

/-- `get_rank_bounds(nelements, size, rank)` when `nelements` is a multiple of `size` or not larger than
`size` (vmachine/mpi.py:469-524): the calls in which no remainder has to be distributed. -/
def rankBoundsEven (n size rank : Nat) : Option (Nat × Nat) :=
  if n = 0 then none
  else if rank ≥ size then none
  else if n > size then rankBoundsSplit n rank (n / size)
  else if n < size then rankBoundsSplit n rank (ceilDiv n size)
  else rankBoundsSplit n rank 1

/-- `get_rank_bounds(nelements, size, rank)` with `esplit=None` (vmachine/mpi.py:456-524).
The recursive call at line 486 is always made with a multiple of `size`, so the recursion is unrolled
once (`rankBoundsEven`).  `ret[0]` on a `None` return (line 489/491) is a `TypeError`. -/
def getRankBounds (n size rank : Nat) : Res (Option (Nat × Nat)) :=
  if n = 0 then .ok none
  else if rank ≥ size then .ok none
  else if n > size then
    let remainder := n % size
    if remainder > 0 then
      match rankBoundsEven (n - remainder) size rank with
      | none => .error .typeError
      | some (lo, hi) =>
        if rank + 1 ≤ remainder then .ok (some (lo + rank, hi + rank + 1))
        else .ok (some (lo + remainder, hi + remainder))
    else .ok (rankBoundsSplit n rank (n / size))
  else .ok (rankBoundsEven n size rank)

/-- `get_global_to_local_slice((start, stop), (lower, upper))` (vmachine/mpi.py:411-445). -/
def globalToLocal (start stop : Option Int) (lower upper : Int) : Res (Option (Int × Int)) :=
  match start, stop with
  | some start, some stop =>
    let newStart : Option Int := if start ≥ upper then none else if start < lower then some lower else some start
    let newStop : Option Int := if stop ≤ lower then none else if upper < stop then some upper else some stop
    match newStart, newStop with
    | some a, some b => .ok (some (a - lower, b - lower))
    | _, _ => .ok none
  | _, _ => .error .valueError

/-- `dgather(elements)` (vmachine/mpi.py:403-408): later dictionaries overwrite earlier ones.
A dictionary is modelled as a lookup function. -/
def dgather {κ ν : Type} (elements : List (κ → Option ν)) : κ → Option ν :=
  elements.tail.foldl (fun grow d k => (d k).or (grow k)) (elements.headD fun _ => none)

/-- `hgather(elements)` (vmachine/mpi.py:550-561): a zero array of the total length is filled at consecutive
positions, skipping empty elements. -/
def hgather {α : Type _} (zero : α) (elements : List (List α)) : Res (List α) := do
  let n := (elements.map List.length).sum
  let st ← elements.foldlM
    (fun (st : List α × Nat) e =>
      if e.length = 0 then .ok st
      else do
        let stop := st.2 + e.length
        let fill ← assignSlice st.1 st.2 stop e
        .ok (fill, stop))
    (List.replicate n zero, 0)
  .ok st.1

end Ocgis.Mpi
