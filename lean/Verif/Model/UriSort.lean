import Verif.Py
/-!
# Putting files in the order of their times

Models `get_sorted_uris_by_time_dimension` (util/helpers.py:666-689).  A file is any value; `last f` stands for what opening the file and asking
its time for `extent_datetime[1]` gives, as a number.  Opening a file never fails here.
-/
namespace Ocgis.UriSort

/-- `to_sort[key] = value` (util/helpers.py:686): a key that is there gets the new value and keeps its place. -/
def put {α} (d : List (Int × α)) (k : Int) (v : α) : List (Int × α) :=
  match d with
  | [] => [(k, v)]
  | (k', v') :: d => if k' = k then (k', v) :: d else (k', v') :: put d k v

/-- The loop (util/helpers.py:683-686). -/
def table {α} (last : α → Int) (files : List α) : List (Int × α) := files.foldl (fun d f => put d (last f) f) []

/-- One key into its place. -/
def insertKey (k : Int) : List Int → List Int
  | [] => [k]
  | x :: l => if k ≤ x then k :: x :: l else x :: insertKey k l

/-- `sorted(to_sort)` (util/helpers.py:687). -/
def sortKeys : List Int → List Int
  | [] => []
  | k :: l => insertKey k (sortKeys l)

/-- `[to_sort[sk] for sk in sorted_keys]` (util/helpers.py:688).  Every key is there, so that none is left out. -/
def sortFiles {α} (last : α → Int) (files : List α) : List α :=
  let d := table last files
  (sortKeys (d.map (·.1))).filterMap fun k => d.lookup k

end Ocgis.UriSort
