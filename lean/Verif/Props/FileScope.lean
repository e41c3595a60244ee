import Verif.Proofs.FileScope
/-!
# C104: files are closed, once, whatever happens
-/
namespace Ocgis.Props
open Ocgis.FileScope Ocgis.Spec Ocgis.Proofs.FileScope

/-- C104, for every program that opens scopes inside scopes, uses files, fails anywhere and catches exceptions or not, on
every driver, with files that can be opened and files that cannot: afterwards the same files are open as before; every file
the program opened was opened once and closed once, after it was opened; a file that was open before is not closed; and
whatever is used is open at that moment (or an iterator, which holds no file).  Partial: a scope that asks for a group of a
file leaves it open (`C104_group_counterexample`, `C104_missing_group_counterexample`). -/
theorem C104_closed_once_partial (E : Libs) (p : Prog) (cur : Option Handle) (w w' : World) (r : Option PyErr)
    (hrun : run E p cur w = (w', r)) (hgroups : NoGroups p) (hgiven : GivenOpen w.opens p) (hnew : ∀ i ∈ w.opens, i < w.next)
    (hcur : ∀ h, cur = some h → h.id ∈ w.opens) :
    w'.opens = w.opens ∧ w.next ≤ w'.next ∧ ∃ new, w'.log = w.log ++ new ∧
      (∀ id, w.next ≤ id → id < w'.next → timesOpened id new = 1 ∧ timesClosed id new = 1) ∧
      (∀ id, id < w.next ∨ w'.next ≤ id → timesOpened id new = 0 ∧ timesClosed id new = 0) ∧
      (∀ a b id, new = a ++ .closed id :: b → timesOpened id a = 1) ∧
      (∀ a b h, new = a ++ .used h :: b →
        h.id ∈ w.opens ∨ (timesOpened h.id a = 1 ∧ timesClosed h.id a = 0) ∨ (E.vector = true ∧ h.group = ["iterator"])) := by
  obtain ⟨new, h1, h2, h3⟩ := run_clean E p cur w hgroups hgiven hnew (fun h hh => Or.inl (hcur h hh))
  rw [hrun] at h1 h2 h3
  exact ⟨h2, h3.le, new, h1, h3.once, h3.none, h3.order, h3.use⟩

/-- C104, exceptions: when the files can be opened and every scope has something to scope, the exception that leaves the
program is the one the program raised, and there is none when it raised none; closing files changes nothing about it. -/
theorem C104_exceptions_partial (E : Libs) (p : Prog) (h : Handle) (w : World) (hE : ∀ u m, E.canOpen u m = true)
    (hgroups : NoGroups p) (hsource : HasSource p) : (run E p (some h) w).2 = raisedBy p :=
  run_raised E p hE (some h) w hgroups hsource (by simp)

/-- C104, what is scoped: an open object or path given by the caller goes before the request dataset; the open file of the
request dataset goes before its location; without any of them it is an error and nothing is opened.  Only paths are
opened, and closed again; the keyword arguments of the request dataset go before those of the caller, unless the
path was given. -/
theorem C104_target (E : Libs) (s : Scope) (w : World) :
    (∀ h, s.given = some (.handle h) →
      run E (.scope s (.use .done) .done) none w = ({ w with log := w.log ++ [.used h] }, none)) ∧
    (∀ rd h, s.given = none → s.driver = some rd → rd.opened = some h →
      run E (.scope s (.use .done) .done) none w = ({ w with log := w.log ++ [.used h] }, none)) ∧
    (s.given = none → s.driver = none → run E (.scope s (.use .done) .done) none w = (w, some .valueError)) ∧
    (∀ u, E.netcdf = false → E.vector = false → E.canOpen u s.mode = true → s.given = some (.uris u) →
      (run E (.scope s (.use .done) .done) none w).1.log =
        w.log ++ [.opened w.next u s.mode s.kw, .used ⟨w.next, []⟩, .closed w.next]) ∧
    (∀ rd u, E.netcdf = false → E.vector = false → E.canOpen u s.mode = true → s.given = none → s.driver = some rd →
      rd.opened = none → rd.uri = some u →
      ∃ kw, (run E (.scope s (.use .done) .done) none w).1.log =
        w.log ++ [.opened w.next u s.mode kw, .used ⟨w.next, []⟩, .closed w.next] ∧
        ∀ k, kw.lookup k = match rd.kw with
          | none => s.kw.lookup k
          | some d => match (d.reverse.lookup k) with
            | some v => some v
            | none => s.kw.lookup k) := by
  refine ⟨?_, ?_, ?_, ?_, ?_⟩
  · intro h hg
    have he : enterScope E s w = (w, .ok (some h, false)) := by unfold enterScope chooseTarget; rw [hg]
    rw [run_scope E s _ _ _ _ _ _ _ he]
    rfl
  · intro rd h hg hd ho
    have he : enterScope E s w = (w, .ok (some h, false)) := by
      unfold enterScope chooseTarget; rw [hg, hd]; simp only [ho]
    rw [run_scope E s _ _ _ _ _ _ _ he]
    rfl
  · intro hg hd
    have he : enterScope E s w = (w, .error .valueError) := by unfold enterScope chooseTarget; rw [hg, hd]
    simp only [run, he]
  · intro u hn hv hc hg
    have he : enterScope E s w = (⟨w.next :: w.opens, w.next + 1, w.log ++ [.opened w.next u s.mode s.kw]⟩, .ok (some ⟨w.next, []⟩, true)) := by
      unfold enterScope chooseTarget; rw [hg]
      simp only [openFile, hn, hv, hc, Bool.false_and, Bool.false_eq_true, if_false, if_true, enter]
    rw [run_scope E s _ _ _ _ _ _ _ he]
    simp [run, leave, closeFile, hv]
  · intro rd u hn hv hc hg hd ho hu
    have he : enterScope E s w = (⟨w.next :: w.opens, w.next + 1, w.log ++ [.opened w.next u s.mode (effective s (some rd))]⟩, .ok (some ⟨w.next, []⟩, true)) := by
      unfold enterScope chooseTarget; rw [hg, hd]; simp only [ho, hu]
      simp only [openFile, hn, hv, hc, Bool.false_and, Bool.false_eq_true, if_false, if_true, enter]
      rfl
    refine ⟨effective s (some rd), ?_, ?_⟩
    · rw [run_scope E s _ _ _ _ _ _ _ he]
      simp [run, leave, closeFile, hv]
    · intro k
      cases hk : rd.kw with
      | none => simp only [effective, hk]
      | some d => simp only [effective, hk]; exact kwUpdate_lookup d s.kw k

/-- C104, a file created by several processes: unless the caller sets `parallel`, the library opens it for all processes
exactly in the passes that all processes make together, whatever the setting, the number of processes and the format; so no
process waits in an opening for others that do not come. -/
theorem C104_parallel_partial (E : Libs) (kw : Kw) (hp : kw.lookup "parallel" = none) :
    ∀ m ∈ writeModes E kw, opensParallel E kw m = true → together E m = true := by
  intro m hm ho
  by_cases h1 : 1 < E.size
  · by_cases hu : E.useMpi = true
    · by_cases hf : (kw.lookup "format").getD ["NETCDF4"] = ["NETCDF4"]
      · simp [writeModes, h1, hu, hf, hp] at hm
        simp [together, hm]
      · exfalso
        have e : parallelKw E ["out.nc"] (openMode m) kw = kw := by
          unfold parallelKw
          simp only [hf, if_false, ite_self]
        rw [opensParallel, e, hp] at ho
        simp at ho
    · exfalso
      have e : parallelKw E ["out.nc"] (openMode m) kw = kw := by
        unfold parallelKw
        split
        · split
          · simp [hu, hp]
          · rfl
        · rfl
      rw [opensParallel, e, hp] at ho
      simp at ho
  · simp [together]; omega

/-- C104, the other way: with several processes, the setting and the default format, the one pass is opened for all. -/
theorem C104_parallel_used (E : Libs) (kw : Kw) (hp : kw.lookup "parallel" = none) (hf : kw.lookup "format" = none)
    (hs : 1 < E.size) (hu : E.useMpi = true) : writeModes E kw = [.asynchronous] ∧ opensParallel E kw .asynchronous = true := by
  constructor
  · simp [writeModes, hs, hu, hp, hf]
  · have h : ((kwSet kw "parallel" ["True"]).lookup "parallel").getD [] = ["True"] := by
      rw [kwSet_lookup]; simp
    simp only [opensParallel, parallelKw, openMode]
    simp only [hs, hf, hp, hu, List.length_singleton, and_self, if_true, Option.getD_none, reduceCtorEq, if_false, h, true_and]
    split
    · rw [kwSet_lookup]; simp [h]
    · simp [h]

/-- C104, the passes: the first pass, and no other, creates the file; the data are written in one pass, the last; and without
the setting `USE_NETCDF4_MPI`, in other formats, or when `parallel` is declined, no pass is made by all processes at once. -/
theorem C104_passes (E : Libs) (kw : Kw) :
    (∃ m rest, writeModes E kw = m :: rest ∧ openMode m = "w" ∧ ∀ m' ∈ rest, openMode m' = "a") ∧
    (∃ init m, writeModes E kw = init ++ [m] ∧ m ≠ .template ∧ ∀ m' ∈ init, m' = .template) ∧
    (E.useMpi = false ∨ (∃ f, kw.lookup "format" = some f ∧ f ≠ ["NETCDF4"]) ∨ kw.lookup "parallel" = some ["False"] →
      .asynchronous ∉ writeModes E kw) ∧
    (1 < E.size → .normal ∉ writeModes E kw) := by
  have hsplit : (writeModes E kw = [.asynchronous] ∧ E.useMpi = true ∧ 1 < E.size ∧ (kw.lookup "format").getD ["NETCDF4"] = ["NETCDF4"] ∧
        (kw.lookup "parallel").getD ["True"] = ["True"]) ∨
      (1 < E.size ∧ writeModes E kw = [.template, .fill]) ∨ (¬ 1 < E.size ∧ writeModes E kw = [.normal]) := by
    unfold writeModes
    by_cases h1 : 1 < E.size
    · by_cases h2 : E.useMpi = true
      · by_cases h3 : (kw.lookup "format").getD ["NETCDF4"] = ["NETCDF4"] ∧ (kw.lookup "parallel").getD ["True"] = ["True"]
        · exact Or.inl ⟨by simp [h1, h2, h3], h2, h1, h3⟩
        · refine Or.inr (Or.inl ⟨h1, ?_⟩)
          simp only [h1, h2, h3, if_true, if_false, and_self]
      · exact Or.inr (Or.inl ⟨h1, by simp [h1, h2]⟩)
    · exact Or.inr (Or.inr ⟨h1, by simp [h1]⟩)
  rcases hsplit with ⟨h, hu, hs, hf, hp⟩ | ⟨hs, h⟩ | ⟨hs, h⟩ <;> rw [h]
  · refine ⟨⟨_, _, rfl, by decide, by simp⟩, ⟨[], _, rfl, by decide, by simp⟩, ?_, fun _ => by decide⟩
    rintro (h | ⟨f, h, hn⟩ | h)
    · rw [hu] at h; exact absurd h (by decide)
    · rw [h] at hf; exact absurd hf hn
    · rw [h] at hp; exact absurd hp (by decide)
  · exact ⟨⟨_, _, rfl, by decide, by decide⟩, ⟨[.template], .fill, rfl, by decide, by decide⟩, fun _ => by decide, fun _ => by decide⟩
  · exact ⟨⟨_, _, rfl, by decide, by simp⟩, ⟨[], .normal, rfl, by decide, by simp⟩, fun _ => by decide, fun h => absurd h hs⟩

/-- A driver for plain files that can open everything. -/
def plainLibs : Libs := ⟨fun _ _ => true, fun _ _ => false, false, false, 1, false⟩

/-- A scope for reading a location. -/
def readScope (u : String) : Scope := ⟨none, some (.uris [u]), "r", []⟩

example : run plainLibs (.attempt (.scope (readScope "a.csv") (.use (.scope (readScope "b.csv") (.use (.fail .keyError)) .done)) .done)
      (.scope (readScope "a.csv") (.use .done) .done)) none ⟨[], 0, []⟩ =
    (⟨[], 3, [.opened 0 ["a.csv"] "r" [], .used ⟨0, []⟩, .opened 1 ["b.csv"] "r" [], .used ⟨1, []⟩, .closed 1, .closed 0,
      .opened 2 ["a.csv"] "r" [], .used ⟨2, []⟩, .closed 2]⟩, none) := by decide +kernel

/-- netCDF files with one group `g`. -/
def groupLibs : Libs := ⟨fun _ _ => true, fun _ g => g == ["g"], true, false, 1, false⟩

/-- C104 fails for groups: a request dataset that asks for a group of its file is opened, but the group cannot be closed.
The reading is done, an exception leaves it, and the file stays open. -/
theorem C104_group_counterexample :
    run groupLibs (.scope ⟨some ⟨none, some ["a.nc"], some [("group_indexing", ["g"])]⟩, none, "r", []⟩ (.use .done) .done) none ⟨[], 0, []⟩ =
      (⟨[0], 1, [.opened 0 ["a.nc"] "r" [], .used ⟨0, ["g"]⟩]⟩, some .ioError) := by decide +kernel

/-- C104 fails for groups that are missing: the file stays open. -/
theorem C104_missing_group_counterexample :
    run groupLibs (.scope ⟨some ⟨none, some ["a.nc"], some [("group_indexing", ["x"])]⟩, none, "r", []⟩ (.use .done) .done) none ⟨[], 0, []⟩ =
      (⟨[0], 1, [.opened 0 ["a.nc"] "r" []]⟩, some .keyError) := by decide +kernel

/-- C104 fails for the exception of the body: it is replaced by the exception of closing a group. -/
theorem C104_replaced_counterexample :
    (run groupLibs (.scope ⟨some ⟨none, some ["a.nc"], some [("group_indexing", ["g"])]⟩, none, "r", []⟩ (.fail .keyError) .done) none ⟨[], 0, []⟩).2 =
      some .ioError := by decide +kernel

/-- C104 fails for callers that set `parallel`: asked for without the setting, or left to the default by `None` with it, the
template is opened for all processes by the first one alone. -/
theorem C104_parallel_counterexample :
    (∃ m ∈ writeModes ⟨fun _ _ => true, fun _ _ => true, true, false, 4, false⟩ [("parallel", ["True"])],
      opensParallel ⟨fun _ _ => true, fun _ _ => true, true, false, 4, false⟩ [("parallel", ["True"])] m = true ∧
      together ⟨fun _ _ => true, fun _ _ => true, true, false, 4, false⟩ m = false) ∧
    (∃ m ∈ writeModes ⟨fun _ _ => true, fun _ _ => true, true, false, 4, true⟩ [("parallel", [])],
      opensParallel ⟨fun _ _ => true, fun _ _ => true, true, false, 4, true⟩ [("parallel", [])] m = true ∧
      together ⟨fun _ _ => true, fun _ _ => true, true, false, 4, true⟩ m = false) :=
  ⟨⟨.template, by decide +kernel⟩, ⟨.template, by decide +kernel⟩⟩

end Ocgis.Props
