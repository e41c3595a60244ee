import Verif.Proofs.CsvRead
/-!
# C113: a CSV file opened as a dataset shows its records
-/
namespace Ocgis.Props
open Spec Proofs.CsvRead Ocgis.CsvRead

/-- Four stations with a name and a value. -/
def demoStations : CsvRead.File :=
  { header := ["id", "name"], body := [⟨["1", "a"], 1⟩, ⟨["2", "b"], 1⟩, ⟨["3"], 1⟩, ⟨["4", "d"], 1⟩] }

theorem demoStations_plain : PlainCsv demoStations := by
  refine ⟨by decide, ?_⟩
  intro r hr
  simp only [demoStations, List.mem_cons, List.not_mem_nil, or_false] at hr
  rcases hr with rfl | rfl | rfl | rfl <;> simp

/-- C113: a field of a CSV file has one variable for each name in the header and no others, on all ranks. -/
theorem C113_columns (f : CsvRead.File) (size rank : Nat) :
    ∃ x, openOn f size rank = .ok x ∧ (x.vars.map (·.name)).Nodup ∧ (∀ n, n ∈ x.vars.map (·.name) ↔ n ∈ f.header) ∧
      (f.header.Nodup → x.vars.map (·.name) = f.header) := by
  rw [openOn_eq]
  refine ⟨_, rfl, ?_⟩
  simp only
  by_cases hr : rank < min f.lineCount (Mpi.effectiveSize size 2 f.lineCount)
  · rw [if_pos hr]
    simp only [names_fresh]
    exact ⟨nodup_columns _, fun n => mem_columns, columns_of_nodup⟩
  · rw [if_neg hr]
    simp only [names_fresh]
    exact ⟨nodup_columns _, fun n => mem_columns, columns_of_nodup⟩

example : (match openOn demoStations 2 1 with
    | .ok x => (x.vars.map (·.name), x.lo, x.hi)
    | .error _ => ([], 0, 0)) = (["id", "name"], 2, 4) := by decide

/-- C113 (ordinary files, nothing was done with the field before it is read): on every rank that has a part of the file, each column shows
the records of that part, in their order; reading one variable does not keep another from showing its own column. -/
theorem C113_read_partial (f : CsvRead.File) (hp : PlainCsv f) (size rank : Nat) (x : CsvRead.Field) (ho : openOn f size rank = .ok x)
    (he : x.empty = false) (n : String) (hn : n ∈ f.header) :
    ∃ y vals, getValue f x n = (y, .ok (some vals)) ∧ x.lo < x.hi ∧ x.hi ≤ f.body.length ∧ vals.length = x.hi - x.lo ∧
      ShowsRecords f n x.lo vals ∧
      ∀ n' ∈ f.header, ∃ vals', getValue f y n' = (y, .ok (some vals')) ∧ vals'.length = x.hi - x.lo ∧ ShowsRecords f n' x.lo vals' := by
  obtain ⟨h1, h2, h3, h4⟩ := openOn_fresh ho he
  rw [lineCount_plain hp] at h4
  obtain ⟨k1, k2, k3, -⟩ := readFresh h1 he h2 h3 h4
  refine ⟨_, _, k1 n hn, h3, by rwa [← rows_plain hp], by simp [k3], showsRecords_window f x hn, ?_⟩
  intro n' hn'
  exact ⟨_, k2 n' hn', by simp [k3], showsRecords_window f x hn'⟩

example : shownOn demoStations 2 "name" 1 = [.missing, .text "d"] := by decide

/-- C113 (ordinary files; one process, or not just one record): every rank can open and read the file, and what the ranks show is, in the
order of the ranks, every record of the file once. -/
theorem C113_ranks_partial (f : CsvRead.File) (hp : PlainCsv f) (size : Nat) (hs : 0 < size) (h1 : size = 1 ∨ f.body.length ≠ 1)
    (n : String) (hn : n ∈ f.header) :
    ((List.range size).flatMap (shownOn f size n)).length = f.body.length ∧
      ShowsRecords f n 0 ((List.range size).flatMap (shownOn f size n)) := by
  have hlc := lineCount_plain hp
  have hrb := rows_plain hp
  let m := Mpi.effectiveSize size 2 f.lineCount
  have hm : m ≤ size ∧ m ≤ f.lineCount ∧ (0 < f.lineCount → 0 < m) := by
    have : f.lineCount = f.body.length := by rw [hlc, hrb]
    show Mpi.effectiveSize size 2 f.lineCount ≤ _ ∧ Mpi.effectiveSize size 2 f.lineCount ≤ _ ∧ (_ → 0 < Mpi.effectiveSize size 2 f.lineCount)
    simp only [Mpi.effectiveSize]
    split <;> split <;> omega
  let s : Nat → Nat := fun i => if i ≤ m then Mpi.splitPoint f.lineCount m i else f.lineCount
  have hs0 : s 0 = 0 := by simp [s, Mpi.splitPoint_zero]
  have hsm : s m = f.lineCount := by
    show (if m ≤ m then _ else _) = _
    rw [if_pos (Nat.le_refl _)]
    by_cases h0 : 0 < m
    · exact Mpi.splitPoint_size _ _ h0
    · have : f.lineCount = 0 := by have := hm.2.2; omega
      rw [this, show m = 0 by omega, Mpi.splitPoint_zero]
  have hmono : ∀ i, s i ≤ s (i + 1) := by
    intro i
    by_cases h : i + 1 ≤ m
    · show (if _ then _ else _) ≤ (if _ then _ else _)
      rw [if_pos (by omega), if_pos h]
      exact Mpi.splitPoint_mono ..
    · by_cases h' : i = m
      · subst h'
        rw [hsm]
        show _ ≤ (if _ then _ else _)
        rw [if_neg (by omega)]
        exact Nat.le_refl _
      · show (if _ then _ else _) ≤ (if _ then _ else _)
        rw [if_neg (by omega), if_neg (by omega)]
        exact Nat.le_refl _
  have hpiece : ∀ r, shownOn f size n r = ((f.rows.map (cellD f.header n)).drop (s r)).take (s (r + 1) - s r) := by
    intro r
    by_cases hr : r < m
    · have hrm : r < min f.lineCount (Mpi.effectiveSize size 2 f.lineCount) := by
        show r < min f.lineCount m
        omega
      have ho := openOn_eq f size r
      simp only [if_pos hrm] at ho
      obtain ⟨g1, g2, g3, g4⟩ := openOn_fresh ho rfl
      obtain ⟨k1, -, -, -⟩ := readFresh g1 rfl g2 g3 (Nat.le_trans g4 (Nat.le_of_eq hlc))
      simp only [shownOn, ho, k1 n hn, recordsOf]
      have e1 : s r = Mpi.splitPoint f.lineCount m r := if_pos (by omega)
      have e2 : s (r + 1) = Mpi.splitPoint f.lineCount m (r + 1) := if_pos (by omega)
      rw [e1, e2, ← List.map_drop, ← List.map_take]
    · have hrm : ¬ r < min f.lineCount (Mpi.effectiveSize size 2 f.lineCount) := by
        show ¬ r < min f.lineCount m
        omega
      have ho := openOn_eq f size r
      simp only [if_neg hrm] at ho
      have e2 : s (r + 1) = f.lineCount := if_neg (by omega)
      have e1 : s r = f.lineCount := by
        by_cases h' : r = m
        · rw [h', hsm]
        · exact if_neg (by omega)
      rw [e1, e2, Nat.sub_self, List.take_zero]
      simp only [shownOn, ho, getValue]
      split
      · rename_i v hv
        split at hv
        · cases hv
        · simp at hv
      · rfl
  have hall : (List.range size).flatMap (shownOn f size n) = f.rows.map (cellD f.header n) := by
    have : shownOn f size n = fun r => ((f.rows.map (cellD f.header n)).drop (s r)).take (s (r + 1) - s r) := funext hpiece
    rw [this, flatMap_pieces _ s hs0 hmono]
    have : s size = f.lineCount := by
      by_cases h : size = m
      · rw [h, hsm]
      · exact if_neg (by omega)
    rw [this, List.take_of_length_le]
    simp [hlc]
  rw [hall]
  refine ⟨by simp [hrb], ?_⟩
  intro i hi
  rw [List.getElem_map, Nat.zero_add]
  exact cellOf_isCell f (List.getElem?_eq_getElem _) (cellOf_eq_cellD _ hn)

example : (List.range 3).flatMap (shownOn demoStations 3 "name") = [.text "a", .text "b", .missing, .text "d"] := by decide

/-- C113 is false for one record and several processes: no process shows it. -/
theorem C113_one_record_never (f : CsvRead.File) (hp : PlainCsv f) (h1 : f.body.length = 1) (size : Nat) (hs : 1 < size) (n : String)
    (hn : n ∈ f.header) (rank : Nat) : ∃ x, openOn f size rank = .ok x ∧ x.empty = true ∧ getValue f x n = (x, .ok none) := by
  have hlc : f.lineCount = 1 := by rw [lineCount_plain hp, rows_plain hp, h1]
  have hm : Mpi.effectiveSize size 2 1 = 0 := by
    simp only [Mpi.effectiveSize]
    rw [if_pos hs, if_pos (by omega)]
  rw [openOn_eq]
  simp only [hlc, hm]
  rw [if_neg (by omega)]
  refine ⟨_, rfl, rfl, ?_⟩
  have := get_fresh (f := f) (x := { vars := (columns f.header).map fun n => { name := n }, len := 0, lo := 0, hi := 0, empty := true }) rfl hn
  simp only [getValue, this, if_true]

example : PlainCsv { header := ["id"], body := [⟨["1"], 1⟩] } := ⟨by decide, by simp⟩

/-! ## Lines and records -/

/-- C113 is false for records on several lines and blank lines: a variable has one value for each line below the header, of which the first
are the records; the others are filler. As many values as records there are only if every record stands on one line and no line is
blank. -/
theorem C113_lines_never (f : CsvRead.File) (hl : ∀ r ∈ f.body, 1 ≤ r.lines) (hr : f.rows ≠ []) (n : String) (hn : n ∈ f.header) :
    ∃ x y vals, openOn f 1 0 = .ok x ∧ getValue f x n = (y, .ok (some vals)) ∧ vals.length = f.lineCount ∧
      f.rows.length ≤ f.lineCount ∧ ShowsRecords f n 0 (vals.take f.rows.length) ∧
      (∀ i, f.rows.length ≤ i → i < f.lineCount → vals[i]? = some .filler) ∧
      (vals.length = f.rows.length ↔ ∀ r ∈ f.body, r.lines = 1 ∧ r.cells ≠ []) := by
  have hle : ∀ b : List Rec, (∀ r ∈ b, 1 ≤ r.lines) → (b.filter fun r => !r.cells.isEmpty).length ≤ (b.map (·.lines)).sum ∧
      ((b.map (·.lines)).sum = (b.filter fun r => !r.cells.isEmpty).length → ∀ r ∈ b, r.lines = 1 ∧ r.cells ≠ []) := by
    intro b
    induction b with
    | nil => intro _; simp
    | cons a t ih =>
      intro h
      obtain ⟨i1, i2⟩ := ih fun r hr => h r (List.mem_cons_of_mem _ hr)
      have ha := h a (List.mem_cons_self ..)
      rw [List.map_cons, List.sum_cons]
      by_cases hc : a.cells = []
      · rw [List.filter_cons_of_neg (by simp [hc])]
        exact ⟨by omega, fun h => by omega⟩
      · rw [List.filter_cons_of_pos (by simp [hc]), List.length_cons]
        refine ⟨by omega, fun h => ?_⟩
        intro r hr
        rcases List.mem_cons.1 hr with rfl | hr
        · exact ⟨by omega, hc⟩
        · exact i2 (by omega) r hr
  obtain ⟨h1, h2⟩ := hle f.body hl
  have hle1 : f.rows.length ≤ f.lineCount := h1
  have hpos : 0 < f.rows.length := List.length_pos_iff.2 hr
  have ho := openOn_one (f := f) (by omega)
  let x : CsvRead.Field := { vars := (columns f.header).map fun n => { name := n }, len := f.lineCount, lo := 0, hi := f.lineCount }
  have hw : recordsOf f x = f.rows := by
    show (f.rows.drop 0).take (f.lineCount - 0) = _
    rw [List.drop_zero, Nat.sub_zero, List.take_of_length_le hle1]
  have hg := getValue_unread f x (get_fresh (f := f) (x := x) rfl hn) rfl rfl (fresh_in_header rfl) (by rw [hw]; exact hr) rfl
  rw [hw, setMany_replicate _ _ (by simpa using hle1)] at hg
  refine ⟨x, _, _, ho, hg, ?_, hle1, ?_, ?_, ?_⟩
  · simp [x]; omega
  · rw [List.take_left' (by simp)]
    have := showsRecords_window f x hn
    rwa [hw] at this
  · intro i h3 h4
    rw [List.getElem?_append_right (by simpa using h3), List.getElem?_replicate]
    simp only [List.length_map, x]
    rw [if_pos (by omega)]
  · constructor
    · intro h
      apply h2
      have h' : f.lineCount = f.rows.length := by rw [← h]; simp [x]; omega
      exact h'
    · intro h
      have h' : f.lineCount = f.rows.length := by
        unfold File.lineCount File.rows
        rw [List.filter_eq_self.2 fun r hr => by simp [(h r hr).2]]
        clear hw hg ho x hpos hle1 h1 h2 hl hr
        revert h
        induction f.body with
        | nil => intro _; rfl
        | cons a t ih =>
          intro h
          rw [List.map_cons, List.sum_cons, List.length_cons, (h a (List.mem_cons_self ..)).1,
            ih fun r hr => h r (List.mem_cons_of_mem _ hr)]
          omega
      simp [x]; omega

/-- One cell with a line break, and a blank line at the end. -/
example : shownOn { header := ["id", "note"], body := [⟨["1", "one\ntwo"], 2⟩, ⟨["2", "b"], 1⟩, ⟨[], 1⟩] } 1 "id" 0 =
    [.text "1", .text "2", .filler, .filler] := by decide

/-- C113 is false for a rank whose part of the lines starts after the last record, and for files with blank lines only: nothing can be
read. -/
theorem C113_blank_never (f : CsvRead.File) (size rank : Nat) (x : CsvRead.Field) (ho : openOn f size rank = .ok x) (he : x.empty = false)
    (hr : f.rows.length ≤ x.lo) (n : String) (hn : n ∈ f.header) : (getValue f x n).2 = .error .runtimeError := by
  obtain ⟨h1, h2, h3, -⟩ := openOn_fresh ho he
  have hw : recordsOf f x = [] := by simp [recordsOf, List.drop_of_length_le hr]
  exact getValue_nothing f x (get_fresh h1 hn) he rfl (fresh_in_header h1) hw

example : (match openOn { header := ["a"], body := [⟨["x\ny\nz"], 3⟩, ⟨["w"], 1⟩] } 2 1 with
    | .ok x => (getValue { header := ["a"], body := [⟨["x\ny\nz"], 3⟩, ⟨["w"], 1⟩] } x "a").2 == .error .runtimeError
    | .error _ => false) = true := by decide

/-- C113 is false for columns with the same name: there is one variable, and it shows the last of them. -/
theorem C113_duplicate_never (f : CsvRead.File) (hp : ∀ r ∈ f.body, r.lines = 1 ∧ r.cells ≠ []) (size rank : Nat) (x : CsvRead.Field)
    (ho : openOn f size rank = .ok x) (he : x.empty = false) (n : String) (last : Nat) (hlast : f.header[last]? = some n)
    (hmax : ∀ col : Nat, last < col → f.header[col]? ≠ some n) (r : Rec) (i : Nat) (hi : i < x.len) (hr : f.body[x.lo + i]? = some r) :
    (x.vars.filter fun v => v.name == n).length = 1 ∧
    ∃ y vals, getValue f x n = (y, .ok (some vals)) ∧ vals[i]? = some (match r.cells[last]? with
      | some s => .text s
      | none => .missing) := by
  obtain ⟨h1, h2, h3, h4⟩ := openOn_fresh ho he
  have hrows : f.rows = f.body := by
    rw [File.rows, List.filter_eq_self]
    intro r hr
    simp [(hp r hr).2]
  have hcount : f.lineCount = f.rows.length := by
    rw [hrows]
    unfold File.lineCount
    clear hrows hr ho h4
    revert hp
    induction f.body with
    | nil => intro _; rfl
    | cons a t ih =>
      intro h
      rw [List.map_cons, List.sum_cons, List.length_cons, (h a (List.mem_cons_self ..)).1, ih fun r hr => h r (List.mem_cons_of_mem _ hr)]
      omega
  have hn : n ∈ f.header := List.mem_of_getElem? hlast
  obtain ⟨k1, -, k3, -⟩ := readFresh h1 he h2 h3 (by omega)
  constructor
  · rw [h1, List.filter_map, List.length_map]
    have : (fun v : Var => v.name == n) ∘ (fun n => ({ name := n } : Var)) = fun m => m == n := rfl
    rw [this, ← List.countP_eq_length_filter, ← List.count_eq_countP, (nodup_columns f.header).count, if_pos (mem_columns.2 hn)]
  · refine ⟨_, _, k1 n hn, ?_⟩
    rw [List.getElem?_map, window_getElem? f x i (by omega), hrows, hr, Option.map_some]
    congr 1
    obtain ⟨col, c1, c2, c3⟩ := cellOf_spec _ _ _ _ (cellOf_eq_cellD r hn)
    have : col = last := by
      rcases Nat.lt_trichotomy col last with h | h | h
      · exact absurd hlast (c2 last h)
      · exact h
      · exact absurd c1 (hmax col h)
    rw [c3, this]
    rfl

example : shownOn { header := ["v", "v"], body := [⟨["1", "2"], 1⟩] } 1 "v" 0 = [.text "2"] := by decide

/-! ## Slices -/

/-- C113: slices of a field that was read show the selected records. -/
theorem C113_slice_partial (f : CsvRead.File) (hp : PlainCsv f) (size rank : Nat) (x : CsvRead.Field) (ho : openOn f size rank = .ok x)
    (he : x.empty = false) (sel : List Nat) (hsel : ∀ i ∈ sel, i < x.len) (n n' : String) (hn : n ∈ f.header) (hn' : n' ∈ f.header) :
    ∃ y vals, (getValue f x n).1 = y ∧ getValue f (slice y sel) n' = (slice y sel, .ok (some vals)) ∧ vals.length = sel.length ∧
      ∀ k (hk : k < sel.length) c, vals[k]? = some c → IsCell f n' (x.lo + sel[k]) c := by
  obtain ⟨h1, h2, h3, h4⟩ := openOn_fresh ho he
  rw [lineCount_plain hp] at h4
  obtain ⟨k1, k2, k3, k4⟩ := readFresh h1 he h2 h3 h4
  refine ⟨readAll f x, sel.map fun i => ((recordsOf f x).map (cellD f.header n')).getD i .filler, by rw [k1 n hn], ?_, by simp, ?_⟩
  · have hg : (readAll f x).get n' = some { name := n', value := some ((recordsOf f x).map (cellD f.header n')) } := by
      rw [get_readAll, get_fresh h1 hn', Option.map_some, updVar, if_neg k4, Option.getD_none, setMany_full _ _ (by simp [k3, h2])]
    have hs : (slice (readAll f x) sel).get n' =
        some { name := n', value := some (sel.map fun i => ((recordsOf f x).map (cellD f.header n')).getD i .filler) } := by
      have := get_map (readAll f x) (fun v => { v with value := v.value.map fun c => sel.map fun i => c.getD i .filler }) (fun _ => rfl) n'
      rw [hg] at this
      exact this
    have hse : (slice (readAll f x) sel).empty = false := he
    simp only [getValue, hs, hse, Bool.false_eq_true, if_false]
  · intro k hk c hc
    rw [List.getElem?_map, List.getElem?_eq_getElem hk, Option.map_some, Option.some.injEq] at hc
    have hlt : sel[k] < ((recordsOf f x).map (cellD f.header n')).length := by
      have := hsel _ (List.getElem_mem hk)
      simp [k3]; omega
    rw [List.getD_eq_getElem?_getD, List.getElem?_eq_getElem hlt, Option.getD_some] at hc
    rw [← hc]
    exact showsRecords_window f x hn' _ hlt

/-- C113 is false for slices of a field that was not read: whatever was selected, as many records from the beginning of the file are shown,
also on ranks with another part of it. -/
theorem C113_slice_never (f : CsvRead.File) (hp : PlainCsv f) (size rank : Nat) (x : CsvRead.Field) (ho : openOn f size rank = .ok x)
    (he : x.empty = false) (sel : List Nat) (hne : sel ≠ []) (hlen : sel.length ≤ f.body.length) (n : String) (hn : n ∈ f.header) :
    ∃ y vals, getValue f (slice x sel) n = (y, .ok (some vals)) ∧ vals.length = sel.length ∧ ShowsRecords f n 0 vals ∧
      ((∀ k (hk : k < sel.length) c, vals[k]? = some c → IsCell f n (x.lo + sel[k]) c) ↔
        ∀ k (hk : k < sel.length), ∃ c, IsCell f n k c ∧ IsCell f n (x.lo + sel[k]) c) := by
  obtain ⟨h1, -, -, -⟩ := openOn_fresh ho he
  have hx : (slice x sel).vars = (columns f.header).map fun n => { name := n } := by
    simp only [slice, h1, List.map_map]
    rfl
  have hpos : 0 < sel.length := List.length_pos_iff.2 hne
  have hrl : sel.length ≤ f.rows.length := by rwa [rows_plain hp]
  obtain ⟨k1, -, k3, -⟩ := readFresh hx he (by simp [slice]) (by simpa [slice] using hpos) (by simpa [slice] using hrl)
  have k3' : (recordsOf f (slice x sel)).length = sel.length := k3
  have hs := showsRecords_window f (slice x sel) hn
  have hs' : ShowsRecords f n 0 ((recordsOf f (slice x sel)).map (cellD f.header n)) := hs
  refine ⟨_, _, k1 n hn, by simp [k3'], hs', ?_⟩
  have hk0 : ∀ k (hk : k < sel.length), ∃ c, ((recordsOf f (slice x sel)).map (cellD f.header n))[k]? = some c ∧ IsCell f n k c := by
    intro k hk
    have hk' : k < ((recordsOf f (slice x sel)).map (cellD f.header n)).length := by simp [k3', hk]
    refine ⟨_, List.getElem?_eq_getElem hk', ?_⟩
    have := hs' k hk'
    rwa [Nat.zero_add] at this
  constructor
  · intro h k hk
    obtain ⟨c, c1, c2⟩ := hk0 k hk
    exact ⟨c, c2, h k hk c c1⟩
  · intro h k hk c hc
    obtain ⟨c1, d1, d2⟩ := hk0 k hk
    rw [hc] at d1
    cases d1
    obtain ⟨c', e1, e2⟩ := h k hk
    rw [isCell_unique hp.1 d2 e1]
    exact e2

/-- The last two of four records are selected and the first two are shown, unless the field was read before. -/
example : (match openOn demoStations 1 0 with
    | .ok x => ((getValue demoStations (slice x [2, 3]) "id").2, (getValue demoStations (slice (getValue demoStations x "id").1 [2, 3]) "id").2)
    | .error e => (.error e, .error e)) = (.ok (some [.text "1", .text "2"]), .ok (some [.text "3", .text "4"])) := by decide

/-! ## Other names and other values -/

/-- C113 is false after a variable was renamed before the field was read: no variable of the field can be read. -/
theorem C113_rename_never (f : CsvRead.File) (hp : PlainCsv f) (size rank : Nat) (x : CsvRead.Field) (ho : openOn f size rank = .ok x)
    (he : x.empty = false) (old new : String) (hold : old ∈ f.header) (hnew : new ∉ f.header) (n : String)
    (hn : n ∈ (rename x old new).vars.map (·.name)) : (getValue f (rename x old new) n).2 = .error .keyError := by
  obtain ⟨h1, h2, h3, h4⟩ := openOn_fresh ho he
  rw [lineCount_plain hp] at h4
  obtain ⟨-, -, -, k4⟩ := readFresh h1 he h2 h3 h4
  have hany : ((x.vars.filter fun w => w.name != old).any fun w => w.name == new) = false := by
    rw [List.any_eq_false]
    intro w hw
    have := fresh_in_header h1 w (List.mem_filter.1 hw).1
    simp only [beq_iff_eq]
    rintro rfl
    exact hnew this
  have hre : rename x old new = { x with vars := (x.vars.filter fun w => w.name != old) ++ [{ name := new, value := none }] } := by
    simp only [rename, get_fresh h1 hold, hany, Bool.false_eq_true, if_false]
  obtain ⟨v, g1, g2, g3⟩ := get_of_mem hn
  have hval : v.value = none := by
    rw [hre] at g2
    simp only [List.mem_append, List.mem_filter, List.mem_singleton] at g2
    rcases g2 with g2 | g2
    · have := g2.1
      rw [h1] at this
      obtain ⟨k, -, rfl⟩ := List.mem_map.1 this
      rfl
    · rw [g2]
  refine getValue_error f _ g1 (by rw [hre]; exact he) hval ⟨{ name := new, value := none }, by rw [hre]; simp, hnew⟩ ?_
  have : recordsOf f (rename x old new) = recordsOf f x := by rw [hre]; rfl
  rw [this]
  exact k4

/-- C113: a variable that is renamed after the field was read shows its column under the new name. -/
theorem C113_rename (f : CsvRead.File) (hp : PlainCsv f) (size rank : Nat) (x : CsvRead.Field) (ho : openOn f size rank = .ok x)
    (he : x.empty = false) (n old new : String) (hn : n ∈ f.header) (hold : old ∈ f.header) (hnew : new ∉ f.header) :
    ∃ vals, getValue f (rename (getValue f x n).1 old new) new = (rename (getValue f x n).1 old new, .ok (some vals)) ∧
      vals.length = x.hi - x.lo ∧ ShowsRecords f old x.lo vals := by
  obtain ⟨h1, h2, h3, h4⟩ := openOn_fresh ho he
  rw [lineCount_plain hp] at h4
  obtain ⟨k1, k2, k3, k4⟩ := readFresh h1 he h2 h3 h4
  refine ⟨(recordsOf f x).map (cellD f.header old), ?_, by simp [k3], showsRecords_window f x hold⟩
  rw [k1 n hn]
  have hg : (readAll f x).get old = some { name := old, value := some ((recordsOf f x).map (cellD f.header old)) } := by
    rw [get_readAll, get_fresh h1 hold, Option.map_some, updVar, if_neg k4, Option.getD_none, setMany_full _ _ (by simp [k3, h2])]
  have hnames : ∀ w ∈ (readAll f x).vars, w.name ≠ new := by
    intro w hw
    obtain ⟨v, hv, rfl⟩ := List.mem_map.1 hw
    rw [updVar_name]
    rintro rfl
    exact hnew (fresh_in_header h1 v hv)
  have hany : (((readAll f x).vars.filter fun w => w.name != old).any fun w => w.name == new) = false := by
    rw [List.any_eq_false]
    intro w hw
    simp [hnames w (List.mem_filter.1 hw).1]
  have hre : rename (readAll f x) old new = { readAll f x with
      vars := ((readAll f x).vars.filter fun w => w.name != old) ++ [{ name := new, value := some ((recordsOf f x).map (cellD f.header old)) }] } := by
    simp only [rename, hg, hany, Bool.false_eq_true, if_false]
  have hgn : (rename (readAll f x) old new).get new = some { name := new, value := some ((recordsOf f x).map (cellD f.header old)) } := by
    rw [hre]
    simp only [Field.get, List.find?_append]
    rw [List.find?_eq_none.2]
    · simp
    · intro w hw
      simp [hnames w (List.mem_filter.1 hw).1]
  have hee : (rename (readAll f x) old new).empty = false := by rw [hre]; exact he
  simp only [getValue, hgn, hee, Bool.false_eq_true, if_false]

/-- C113 is false after a variable that is not in the file was added to a field that was not read: no column can be read. -/
theorem C113_added_never (f : CsvRead.File) (hp : PlainCsv f) (size rank : Nat) (x : CsvRead.Field) (ho : openOn f size rank = .ok x)
    (he : x.empty = false) (new : String) (value : List Cell) (hnew : new ∉ f.header) (n : String) (hn : n ∈ f.header) :
    (getValue f (addVar x new value) n).2 = .error .keyError := by
  obtain ⟨h1, h2, h3, h4⟩ := openOn_fresh ho he
  rw [lineCount_plain hp] at h4
  obtain ⟨-, -, -, k4⟩ := readFresh h1 he h2 h3 h4
  have hg : (addVar x new value).get n = some { name := n } := by
    have := get_fresh h1 hn
    simp only [Field.get] at this
    simp only [addVar, Field.get, List.find?_append, this, Option.some_or]
  exact getValue_error f (addVar x new value) hg he rfl ⟨_, List.mem_append_right _ (List.mem_singleton.2 rfl), hnew⟩ k4

/-- C113 is false for values that were assigned before the field was read: reading another column puts the values of the file in their
place. -/
theorem C113_assign_never (f : CsvRead.File) (hp : PlainCsv f) (size rank : Nat) (x : CsvRead.Field) (ho : openOn f size rank = .ok x)
    (he : x.empty = false) (a b : String) (ha : a ∈ f.header) (hb : b ∈ f.header) (hab : a ≠ b) (value : List Cell)
    (hlen : value.length = x.len) :
    getValue f (assign x a value) a = (assign x a value, .ok (some value)) ∧
    ∃ y vals, (getValue f (assign x a value) b).1 = y ∧ getValue f y a = (y, .ok (some vals)) ∧ vals.length = value.length ∧
      ShowsRecords f a x.lo vals := by
  obtain ⟨h1, h2, h3, h4⟩ := openOn_fresh ho he
  rw [lineCount_plain hp] at h4
  obtain ⟨k1, k2, k3, k4⟩ := readFresh h1 he h2 h3 h4
  have hname : ∀ v : Var, (if v.name = a then { v with value := some value } else v).name = v.name := by intro v; split <;> rfl
  have hga : (assign x a value).get a = some { name := a, value := some value } := by
    have := get_map x (fun v => if v.name = a then { v with value := some value } else v) hname a
    rw [get_fresh h1 ha] at this
    simpa [assign] using this
  have hgb : (assign x a value).get b = some { name := b } := by
    have := get_map x (fun v => if v.name = a then { v with value := some value } else v) hname b
    rw [get_fresh h1 hb] at this
    simpa [assign, Ne.symm hab] using this
  have hee : (assign x a value).empty = false := he
  have hh : ∀ w ∈ (assign x a value).vars, w.name ∈ f.header := by
    intro w hw
    obtain ⟨v, hv, rfl⟩ := List.mem_map.1 hw
    rw [hname]
    exact fresh_in_header h1 v hv
  have hww : recordsOf f (assign x a value) = recordsOf f x := rfl
  refine ⟨by simp only [getValue, hga, hee, Bool.false_eq_true, if_false], ?_⟩
  have hb2 := getValue_unread f (assign x a value) hgb hee rfl hh (by rw [hww]; exact k4) rfl
  refine ⟨_, (recordsOf f x).map (cellD f.header a), rfl, ?_, by simp [k3, hlen, h2], showsRecords_window f x ha⟩
  rw [hb2]
  have hgy := get_map (assign x a value) (updVar f.header (assign x a value).len 0 (recordsOf f (assign x a value))) (fun v => updVar_name ..) a
  rw [hga, Option.map_some, hww, updVar, if_neg k4, Option.getD_some, setMany_full _ _ (by simp [k3, hlen, h2])] at hgy
  exact getValue_read f _ hgy hee rfl

/-- C113: values that are assigned after the field was read stay, and the other columns show the file. -/
theorem C113_assign_partial (f : CsvRead.File) (hp : PlainCsv f) (size rank : Nat) (x : CsvRead.Field) (ho : openOn f size rank = .ok x)
    (he : x.empty = false) (n a b : String) (hn : n ∈ f.header) (ha : a ∈ f.header) (hb : b ∈ f.header) (hab : a ≠ b) (value : List Cell) :
    ∃ y vals, assign (getValue f x n).1 a value = y ∧ getValue f y b = (y, .ok (some vals)) ∧ vals.length = x.hi - x.lo ∧
      ShowsRecords f b x.lo vals ∧ getValue f y a = (y, .ok (some value)) := by
  obtain ⟨h1, h2, h3, h4⟩ := openOn_fresh ho he
  rw [lineCount_plain hp] at h4
  obtain ⟨k1, k2, k3, k4⟩ := readFresh h1 he h2 h3 h4
  have hname : ∀ v : Var, (if v.name = a then { v with value := some value } else v).name = v.name := by intro v; split <;> rfl
  have hg : ∀ m ∈ f.header, (readAll f x).get m = some { name := m, value := some ((recordsOf f x).map (cellD f.header m)) } := by
    intro m hm
    rw [get_readAll, get_fresh h1 hm, Option.map_some, updVar, if_neg k4, Option.getD_none, setMany_full _ _ (by simp [k3, h2])]
  have hga : (assign (readAll f x) a value).get a = some { name := a, value := some value } := by
    have := get_map (readAll f x) (fun v => if v.name = a then { v with value := some value } else v) hname a
    rw [hg a ha] at this
    simpa [assign] using this
  have hgb : (assign (readAll f x) a value).get b = some { name := b, value := some ((recordsOf f x).map (cellD f.header b)) } := by
    have := get_map (readAll f x) (fun v => if v.name = a then { v with value := some value } else v) hname b
    rw [hg b hb] at this
    simpa [assign, Ne.symm hab] using this
  have hee : (assign (readAll f x) a value).empty = false := he
  rw [k1 n hn]
  refine ⟨_, (recordsOf f x).map (cellD f.header b), rfl, ?_, by simp [k3], showsRecords_window f x hb, ?_⟩
  · simp only [getValue, hgb, hee, Bool.false_eq_true, if_false]
  · simp only [getValue, hga, hee, Bool.false_eq_true, if_false]

example : (match openOn demoStations 1 0 with
    | .ok x =>
      let x1 := assign x "name" [.text "p", .text "q", .text "r", .text "s"]
      ((getValue demoStations (getValue demoStations x1 "id").1 "name").2, (getValue demoStations (rename x "id" "station") "name").2,
        (getValue demoStations (addVar x "new" []) "name").2)
    | .error e => (.error e, .error e, .error e)) =
    (.ok (some [.text "a", .text "b", .missing, .text "d"]), .error .keyError, .error .keyError) := by decide

/-! ## Reading what was written -/

/-- C113: a CSV file that was written, with different column names and without line breaks in its cells, is an ordinary file, and reading
it shows in each column the text that each written record has under that name. -/
theorem C113_round_trip (breaks : String → Nat) (t : Tabular.File) (hn : t.header.Nodup) (h0 : t.header ≠ [])
    (hr : ∀ r ∈ t.rows, r.length = t.header.length ∧ ∀ s ∈ r, breaks s = 0) (n : String) (hm : n ∈ t.header) :
    PlainCsv (ofTable breaks t) ∧ (shownOn (ofTable breaks t) 1 n 0).length = (Tabular.read t).length ∧
      ∀ (i : Nat) (rec : Tabular.Record), (Tabular.read t)[i]? = some rec → ∃ s : String, (shownOn (ofTable breaks t) 1 n 0)[i]? = some (.text s) ∧ (n, s) ∈ rec := by
  have hsum : ∀ l : List String, (∀ s ∈ l, breaks s = 0) → (l.map breaks).sum = 0 := by
    intro l
    induction l with
    | nil => intro _; rfl
    | cons a u ih =>
      intro h
      rw [List.map_cons, List.sum_cons, h a (List.mem_cons_self ..), ih fun s hs => h s (List.mem_cons_of_mem _ hs)]
  have hp : PlainCsv (ofTable breaks t) := by
    refine ⟨hn, ?_⟩
    intro r hrr
    obtain ⟨w, hw, rfl⟩ := List.mem_map.1 hrr
    refine ⟨by simp [hsum w (hr w hw).2], ?_⟩
    simp only
    rintro rfl
    have := (hr [] hw).1
    exact h0 (List.length_eq_zero_iff.1 this.symm)
  have key := C113_ranks_partial (ofTable breaks t) hp 1 (by omega) (.inl rfl) n hm
  have e1 : (List.range 1).flatMap (shownOn (ofTable breaks t) 1 n) = shownOn (ofTable breaks t) 1 n 0 := by simp
  rw [e1] at key
  refine ⟨hp, by rw [key.1]; simp [ofTable, Tabular.read], ?_⟩
  intro i rec hi
  simp only [Tabular.read, List.getElem?_map, Option.map_eq_some_iff] at hi
  obtain ⟨w, hw, rfl⟩ := hi
  have hlt : i < (shownOn (ofTable breaks t) 1 n 0).length := by
    rw [key.1]
    simp only [ofTable, List.length_map]
    exact (List.getElem?_eq_some_iff.1 hw).1
  obtain ⟨r, col, r1, r2, r3⟩ := key.2 i hlt
  rw [Nat.zero_add, rows_plain hp] at r1
  simp only [ofTable, List.getElem?_map, hw, Option.map_some, Option.some.injEq] at r1
  subst r1
  have hcl : col < w.length := by
    rw [(hr w (List.mem_of_getElem? hw)).1]
    exact (List.getElem?_eq_some_iff.1 r2).1
  simp only [List.getElem?_eq_getElem hcl] at r3
  refine ⟨w[col], by rw [List.getElem?_eq_getElem hlt, r3], ?_⟩
  have : (t.header.zip w)[col]? = some (n, w[col]) := by
    rw [List.getElem?_zip_eq_some]
    exact ⟨r2, List.getElem?_eq_getElem hcl⟩
  exact List.mem_of_getElem? this

example : (match Tabular.write .csv [[[[[("id", "1"), ("v", "x")], [("id", "2"), ("v", "y")]]]]] none with
    | .ok (some t) => shownOn (ofTable (fun _ => 0) t) 1 "v" 0
    | _ => []) = [.text "x", .text "y"] := by decide

end Ocgis.Props
