import Verif.Model.Collective
/-!
# `reduce_reindex_coordinate_index` (spatial/geomc.py:868-1118)

The serial computation, and the exchange by which ranks look up the new indices of nodes owned by other ranks.
-/
namespace Ocgis.Reindex
open Ocgis.Comm

/-- `uidx[ii]` for `uidx = {ii: jj for ii, jj in zip(u, new_u)}` with `new_u` consecutive from `start`
(spatial/geomc.py:934, 1070). -/
def remapValue (u : List Int) (start ii : Int) : Res Int :=
  match u.idxOf? ii with
  | some k => .ok (start + (k : Int))
  | none => .error .keyError

/-- The serial case (spatial/geomc.py:902-936, 1069-1070): `u = np.unique(cindex)`, new indices are consecutive from
`start_index`, and every value is mapped through the dictionary `uidx` (a missing key is a `KeyError`).  The array
is flattened; restoring the shape (line 986) does not touch the values. -/
def reindexSerial (cindex : List Int) (start : Int) : Res (List Int × List Int) := do
  let u := npUnique cindex
  let out ← cindex.mapM (remapValue u start)
  .ok (out, u)

/-- What the ranks have when the exchange starts: the number of ranks, each rank's coordinate index, each rank's share
of the unique values (`create_unique_global_array`), each rank's first new index (`arange_from_dimension`). -/
structure Cfg where
  n : Nat
  cindex : Nat → List Int
  u : Nat → List Int
  first : Nat → Int

namespace Cfg
variable (c : Cfg)

/-- `uidx.get(v)` on rank `r` (spatial/geomc.py:933-936). -/
def lookup (r : Nat) (v : Int) : Option Int := ((c.u r).idxOf? v).map fun k => c.first r + (k : Int)

/-- Some value lies within the bounds `min(u), max(u)` of a non-empty list. -/
def within (u : List Int) (values : List Int) : Bool :=
  match listMin u, listMax u with
  | .ok lo, .ok hi => values.any fun v => decide (lo ≤ v) && decide (v ≤ hi)
  | _, _ => false

/-- `overlaps` on rank `r` (spatial/geomc.py:942-959). -/
def overlaps (r : Nat) : List Nat :=
  (List.range c.n).filter fun s => s ≠ r && within (c.u s) (c.cindex r)

/-- `destinations` on rank `r` (spatial/geomc.py:962-964). -/
def destinations (r : Nat) : List Nat := (List.range c.n).filter fun d => (c.overlaps d).contains r

end Cfg

/-- Where a rank is in `run_rr_nonroot` / `run_rr_root`.  `acc` is the filled part of `new_cindex`. -/
inductive Phase where
  /-- top of the `for` loop with the values still to do (geomc.py:996, 1069) -/
  | work (rest acc : List Int)
  /-- sending the value to the remaining overlapping ranks (1015) -/
  | sending (v : Int) (todo : List Nat) (rest acc : List Int)
  /-- `search_for_destinations` over the remaining destinations (1020) -/
  | polling (v : Int) (todo : List Nat) (rest acc : List Int)
  /-- waiting for the replies of the remaining overlapping ranks (1029-1034) -/
  | waiting (v : Int) (todo : List Nat) (found : Option Int) (rest acc : List Int)
  /-- the closing loop: polling the remaining destinations until told to stop (1054-1057, 1076-1080) -/
  | idle (todo : List Nat) (acc : List Int)
  | done (acc : List Int)
  /-- an assertion failed (1012-1013, 1047) -/
  | failed

/-- Global state: the ranks' phases, the search messages from `a` to `b`, and the replies from `a` to `b` (`none` is
`MPI_EMPTY_VALUE`). -/
structure St where
  phase : Nat → Phase
  search : Nat → Nat → List Int
  found : Nat → Nat → List (Option Int)

/-- Point update. -/
def upd {α : Type _} (f : Nat → α) (r : Nat) (x : α) : Nat → α := fun i => if i = r then x else f i

/-- Two-place point update. -/
def upd2 {α : Type _} (f : Nat → Nat → α) (a b : Nat) (x : α) : Nat → Nat → α := fun i j => if i = a ∧ j = b then x else f i j

/-- Has the rank sent `child_finished`? -/
def Phase.finished : Phase → Bool
  | .idle _ _ | .done _ => true
  | _ => false

def Phase.isDone : Phase → Bool
  | .done _ => true
  | _ => false

/-- One step of rank `r`.  With `instant = true`, `Test` on a posted receive succeeds as soon as a matching message has
been sent; with `instant = false` it may also fail while the message is still in flight, which is all that MPI promises.
Sends complete at once (small messages are buffered).  That a cancelled receive might already have matched a message
(geomc.py:1117) is not modelled.  The root runs the same program: it never has to ask, because it owns all its values; it may also stop before its first
pass over the destinations, which the code cannot (more behaviours than the code has). -/
inductive Step (c : Cfg) (instant : Bool) : St → St → Prop
  /-- 996-1001, 1047-1048: the rank owns the value -/
  | own (S r v rest acc k) : r < c.n → S.phase r = .work (v :: rest) acc → c.lookup r v = some k →
      Step c instant S { S with phase := upd S.phase r (.work rest (acc ++ [k])) }
  /-- 1002-1013: it does not; negative values fail the assertion -/
  | bad (S r v rest acc) : r < c.n → S.phase r = .work (v :: rest) acc → c.lookup r v = none → v < 0 →
      Step c instant S { S with phase := upd S.phase r .failed }
  | ask (S r v rest acc) : r < c.n → S.phase r = .work (v :: rest) acc → c.lookup r v = none → 0 ≤ v →
      Step c instant S { S with phase := upd S.phase r (.sending v (c.overlaps r) rest acc) }
  /-- 1015: one `Isend` -/
  | send (S r v y todo rest acc) : r < c.n → S.phase r = .sending v (y :: todo) rest acc →
      Step c instant S { S with
        phase := upd S.phase r (.sending v todo rest acc)
        search := upd2 S.search r y (S.search r y ++ [v]) }
  | sent (S r v rest acc) : r < c.n → S.phase r = .sending v [] rest acc →
      Step c instant S { S with phase := upd S.phase r (.polling v (c.destinations r) rest acc) }
  /-- 1096-1118: one destination, `Test` succeeds -/
  | answer (S r v d todo rest acc w ws) : r < c.n → S.phase r = .polling v (d :: todo) rest acc → S.search d r = w :: ws →
      Step c instant S
        { phase := upd S.phase r (.polling v todo rest acc)
          search := upd2 S.search d r ws
          found := upd2 S.found r d (S.found r d ++ [c.lookup r w]) }
  /-- 1096-1118: one destination, `Test` fails -/
  | skip (S r v d todo rest acc) : r < c.n → S.phase r = .polling v (d :: todo) rest acc →
      (instant = true → S.search d r = []) →
      Step c instant S { S with phase := upd S.phase r (.polling v todo rest acc) }
  | polled (S r v rest acc) : r < c.n → S.phase r = .polling v [] rest acc →
      Step c instant S { S with phase := upd S.phase r (.waiting v (c.overlaps r) none rest acc) }
  /-- 1029-1034: one reply -/
  | reply (S r v y todo found rest acc m ms) : r < c.n → S.phase r = .waiting v (y :: todo) found rest acc →
      S.found y r = m :: ms →
      Step c instant S { S with
        phase := upd S.phase r (.waiting v todo (m.or found) rest acc)
        found := upd2 S.found y r ms }
  /-- 1047-1048 -/
  | fill (S r v k rest acc) : r < c.n → S.phase r = .waiting v [] (some k) rest acc →
      Step c instant S { S with phase := upd S.phase r (.work rest (acc ++ [k])) }
  | lost (S r v rest acc) : r < c.n → S.phase r = .waiting v [] none rest acc →
      Step c instant S { S with phase := upd S.phase r .failed }
  /-- 1051-1052 / 1071-1074 -/
  | finish (S r acc) : r < c.n → S.phase r = .work [] acc →
      Step c instant S { S with phase := upd S.phase r (.idle [] acc) }
  /-- 1054-1057 / 1076-1080: another pass over the destinations -/
  | again (S r acc) : r < c.n → S.phase r = .idle [] acc →
      Step c instant S { S with phase := upd S.phase r (.idle (c.destinations r) acc) }
  | idleAnswer (S r d todo acc w ws) : r < c.n → S.phase r = .idle (d :: todo) acc → S.search d r = w :: ws →
      Step c instant S
        { phase := upd S.phase r (.idle todo acc)
          search := upd2 S.search d r ws
          found := upd2 S.found r d (S.found r d ++ [c.lookup r w]) }
  | idleSkip (S r d todo acc) : r < c.n → S.phase r = .idle (d :: todo) acc → (instant = true → S.search d r = []) →
      Step c instant S { S with phase := upd S.phase r (.idle todo acc) }
  /-- 1083-1093: all children have finished; the root sends the success signal -/
  | rootDone (S acc) : 0 < c.n → S.phase 0 = .idle [] acc → (∀ r, r < c.n → (S.phase r).finished = true) →
      Step c instant S { S with phase := upd S.phase 0 (.done acc) }
  /-- 1054: the success signal has arrived -/
  | childDone (S r acc) : r < c.n → r ≠ 0 → S.phase r = .idle [] acc → (S.phase 0).isDone = true →
      Step c instant S { S with phase := upd S.phase r (.done acc) }

/-- Any number of steps. -/
inductive Steps (c : Cfg) (instant : Bool) : St → St → Prop
  | refl (S) : Steps c instant S S
  | cons {S T U} : Step c instant S T → Steps c instant T U → Steps c instant S U

/-- Start of the exchange. -/
def init (c : Cfg) : St := ⟨fun r => .work (c.cindex r) [], fun _ _ => [], fun _ _ => []⟩

end Ocgis.Reindex
