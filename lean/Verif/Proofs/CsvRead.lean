import Verif.Spec.CsvRead
import Verif.Proofs.ScatterGather
/-!
# Lemmas on reading CSV files
-/
namespace Ocgis.Proofs.CsvRead
open Spec Ocgis.CsvRead Mpi

/-! ## Columns -/

theorem mem_columns {n : String} : ∀ {l : List String}, n ∈ columns l ↔ n ∈ l
  | [] => by simp [columns]
  | h :: hs => by
    simp only [columns, List.mem_cons, List.mem_filter, bne_iff_ne, mem_columns (l := hs)]
    constructor
    · rintro (h1 | h1)
      · exact .inl h1
      · exact .inr h1.1
    · rintro (h1 | h1)
      · exact .inl h1
      · by_cases he : n = h
        · exact .inl he
        · exact .inr ⟨h1, he⟩

theorem columns_of_nodup : ∀ {l : List String}, l.Nodup → columns l = l
  | [], _ => rfl
  | h :: hs, hn => by
    rw [List.nodup_cons] at hn
    rw [columns, columns_of_nodup hn.2, List.filter_eq_self.2]
    intro a ha
    rw [bne_iff_ne]
    rintro rfl
    exact hn.1 ha

theorem nodup_columns : ∀ l : List String, (columns l).Nodup
  | [] => by simp [columns]
  | h :: hs => by
    rw [columns, List.nodup_cons]
    exact ⟨by simp, (nodup_columns hs).filter _⟩

/-! ## Cells -/

theorem cellOf_isSome : ∀ (hdr cs : List String) (n : String), (cellOf hdr cs n).isSome ↔ n ∈ hdr
  | [], _, _ => by simp [cellOf]
  | h :: hs, cs, n => by
    have ih := cellOf_isSome hs cs.tail n
    rw [cellOf]
    cases hc : cellOf hs cs.tail n with
    | some c =>
      rw [hc] at ih
      simp only [Option.isSome_some, true_iff] at ih ⊢
      exact List.mem_cons_of_mem _ ih
    | none =>
      rw [hc] at ih
      simp only [Option.isSome_none, Bool.false_eq_true, false_iff] at ih ⊢
      by_cases he : h = n
      · simp [he]
      · simp [he, ih, Ne.symm he]

theorem cellOf_spec : ∀ (hdr cs : List String) (n : String) (c : Cell), cellOf hdr cs n = some c →
    ∃ col : Nat, hdr[col]? = some n ∧ (∀ col' : Nat, col < col' → hdr[col']? ≠ some n) ∧ c = (match cs[col]? with
      | some s => .text s
      | none => .missing)
  | [], _, _, _, h => by simp [cellOf] at h
  | h :: hs, cs, n, c, hc => by
    rw [cellOf] at hc
    cases hr : cellOf hs cs.tail n with
    | some c' =>
      rw [hr] at hc
      cases hc
      obtain ⟨col, h1, h2, h3⟩ := cellOf_spec hs cs.tail n c hr
      refine ⟨col + 1, by simpa using h1, ?_, ?_⟩
      · intro col' hlt
        cases col' with
        | zero => omega
        | succ k => simpa using h2 k (by omega)
      · rw [h3]
        cases cs <;> simp
    | none =>
      rw [hr] at hc
      have hno : n ∉ hs := by rw [← cellOf_isSome hs cs.tail n, hr]; simp
      by_cases he : h = n
      · simp only [he, if_true, Option.some.injEq] at hc
        refine ⟨0, by simp [he], ?_, ?_⟩
        · intro col' hlt hh
          cases col' with
          | zero => omega
          | succ k =>
            rw [List.getElem?_cons_succ] at hh
            exact hno (List.mem_of_getElem? hh)
        · rw [← hc]
          cases cs <;> simp
      · simp [he] at hc

theorem cellOf_isCell (f : CsvRead.File) {n : String} {j : Nat} {r : Rec} {c : Cell} (hr : f.rows[j]? = some r)
    (hc : cellOf f.header r.cells n = some c) : IsCell f n j c := by
  obtain ⟨col, h1, -, h3⟩ := cellOf_spec _ _ _ _ hc
  exact ⟨r, col, hr, h1, h3⟩

theorem isCell_unique {f : CsvRead.File} (hn : f.header.Nodup) {n : String} {j : Nat} {c c' : Cell} (h : IsCell f n j c)
    (h' : IsCell f n j c') : c = c' := by
  obtain ⟨r, col, h1, h2, h3⟩ := h
  obtain ⟨r', col', h1', h2', h3'⟩ := h'
  rw [h1] at h1'
  cases h1'
  obtain ⟨k1, e1⟩ := List.getElem?_eq_some_iff.1 h2
  obtain ⟨k2, e2⟩ := List.getElem?_eq_some_iff.1 h2'
  have : col = col' := (List.getElem_inj hn).1 (e1.trans e2.symm)
  subst this
  rw [h3, h3']

/-- The cell, with a value where there is no column. -/
def cellD (hdr : List String) (n : String) (r : Rec) : Cell := (cellOf hdr r.cells n).getD .missing

theorem cellOf_eq_cellD {hdr : List String} {n : String} (r : Rec) (hn : n ∈ hdr) : cellOf hdr r.cells n = some (cellD hdr n r) := by
  have := (cellOf_isSome hdr r.cells n).2 hn
  obtain ⟨c, hc⟩ := Option.isSome_iff_exists.1 this
  rw [cellD, hc]; rfl

/-! ## Writing several values one after another -/

def setMany (base : List Cell) (i : Nat) : List Cell → List Cell
  | [] => base
  | c :: cs => setMany (base.set i c) (i + 1) cs

theorem setMany_length : ∀ (base : List Cell) (i : Nat) (cs : List Cell), (setMany base i cs).length = base.length
  | _, _, [] => rfl
  | base, i, c :: cs => by rw [setMany, setMany_length]; simp

theorem setMany_before : ∀ (base : List Cell) (i : Nat) (cs : List Cell) (j : Nat), j < i → (setMany base i cs)[j]? = base[j]?
  | _, _, [], _, _ => rfl
  | base, i, c :: cs, j, h => by
    rw [setMany, setMany_before _ _ _ _ (by omega), List.getElem?_set_ne (by omega)]

theorem setMany_in : ∀ (base : List Cell) (i : Nat) (cs : List Cell) (k : Nat), k < cs.length → i + k < base.length →
    (setMany base i cs)[i + k]? = cs[k]?
  | _, _, [], _, h, _ => by simp at h
  | base, i, c :: cs, 0, _, h => by
    rw [setMany, setMany_before _ _ _ _ (by omega)]
    simp only [Nat.add_zero] at h
    simp [h]
  | base, i, c :: cs, k + 1, h, h2 => by
    rw [setMany, show i + (k + 1) = (i + 1) + k by omega, setMany_in _ _ _ k (by simpa using h) (by simp; omega)]
    simp

theorem setMany_after : ∀ (base : List Cell) (i : Nat) (cs : List Cell) (j : Nat), i + cs.length ≤ j → (setMany base i cs)[j]? = base[j]?
  | _, _, [], _, _ => rfl
  | base, i, c :: cs, j, h => by
    simp only [List.length_cons] at h
    rw [setMany, setMany_after _ _ _ _ (by omega), List.getElem?_set_ne (by omega)]

/-- Values after some records were read. -/
theorem setMany_replicate (n : Nat) (cs : List Cell) (h : cs.length ≤ n) :
    setMany (List.replicate n .filler) 0 cs = cs ++ List.replicate (n - cs.length) .filler := by
  apply List.ext_getElem?
  intro j
  by_cases hj : j < cs.length
  · have := setMany_in (List.replicate n .filler) 0 cs j hj (by simp; omega)
    rw [Nat.zero_add] at this
    rw [this, List.getElem?_append_left hj]
  · rw [setMany_after _ _ _ _ (by omega), List.getElem?_append_right (by omega)]
    simp only [List.getElem?_replicate]
    by_cases h2 : j < n
    · rw [if_pos h2, if_pos (by omega)]
    · rw [if_neg h2, if_neg (by omega)]

theorem setMany_full (base cs : List Cell) (h : cs.length = base.length) : setMany base 0 cs = cs := by
  apply List.ext_getElem?
  intro j
  by_cases hj : j < cs.length
  · have := setMany_in base 0 cs j hj (by omega)
    rwa [Nat.zero_add] at this
  · rw [setMany_after _ _ _ _ (by omega), List.getElem?_eq_none (by omega), List.getElem?_eq_none (by omega)]

/-! ## The loops -/

/-- A variable after the records `rows` were written from position `i` on. -/
def updVar (hdr : List String) (len i : Nat) (rows : List Rec) (v : Var) : Var :=
  if rows = [] then v
  else { v with value := some (setMany (v.value.getD (List.replicate len .filler)) i (rows.map (cellD hdr v.name))) }

theorem updVar_name (hdr : List String) (len i : Nat) (rows : List Rec) (v : Var) : (updVar hdr len i rows v).name = v.name := by
  unfold updVar
  split <;> rfl

theorem putRow_ok {hdr : List String} (r : Rec) (i len : Nat) : ∀ (vs : List Var), (∀ v ∈ vs, v.name ∈ hdr) →
    putRow hdr r i len vs = (vs.map (updVar hdr len i [r]), .ok ())
  | [], _ => rfl
  | v :: vs, h => by
    have ih := putRow_ok r i len vs fun w hw => h w (List.mem_cons_of_mem _ hw)
    have hv := cellOf_eq_cellD r (h v (List.mem_cons_self ..))
    simp only [putRow, hv, ih, List.map_cons, updVar, List.cons_ne_nil, if_false, List.map_nil, setMany]

theorem readRows_ok {hdr : List String} (len lo hi : Nat) : ∀ (rows : List Rec) (idx : Nat) (vs : List Var), lo ≤ idx →
    (∀ v ∈ vs, v.name ∈ hdr) →
    readRows hdr len lo hi idx rows vs = (vs.map (updVar hdr len (idx - lo) (rows.take (hi - idx))), .ok ())
  | [], idx, vs, _, _ => by
    have : updVar hdr len (idx - lo) [] = id := by funext v; simp [updVar]
    simp [readRows, this]
  | r :: rs, idx, vs, hl, hv => by
    rw [readRows, if_neg (by omega)]
    by_cases hh : hi ≤ idx
    · rw [if_pos hh, show hi - idx = 0 by omega, List.take_zero]
      have : updVar hdr len (idx - lo) [] = id := by funext v; simp [updVar]
      simp [this]
    · rw [if_neg hh, putRow_ok r _ _ vs hv]
      simp only
      rw [readRows_ok len lo hi rs (idx + 1) _ (by omega), List.map_map]
      · congr 1
        apply List.map_congr_left
        intro v _
        rw [show hi - idx = (hi - (idx + 1)) + 1 by omega, List.take_succ_cons, show idx + 1 - lo = (idx - lo) + 1 by omega]
        simp only [Function.comp_apply]
        by_cases ht : rs.take (hi - (idx + 1)) = []
        · rw [ht]
          simp [updVar, setMany]
        · simp only [updVar, ht, if_false, List.cons_ne_nil, List.map_cons, setMany, List.map_nil, Option.getD_some]
      · intro w hw
        obtain ⟨v, hvm, rfl⟩ := List.mem_map.1 hw
        rw [updVar_name]
        exact hv v hvm

theorem readRows_skip {hdr : List String} (len lo hi : Nat) : ∀ (rows : List Rec) (idx : Nat) (vs : List Var), idx ≤ lo →
    readRows hdr len lo hi idx rows vs = readRows hdr len lo hi lo (rows.drop (lo - idx)) vs
  | [], idx, vs, _ => by simp [readRows]
  | r :: rs, idx, vs, hl => by
    by_cases h : idx = lo
    · subst h; simp
    · rw [readRows, if_pos (by omega), readRows_skip len lo hi rs (idx + 1) vs (by omega), show lo - idx = (lo - (idx + 1)) + 1 by omega,
        List.drop_succ_cons]

/-- The records of the file that belong to a field. -/
def recordsOf (f : CsvRead.File) (x : CsvRead.Field) : List Rec := (f.rows.drop x.lo).take (x.hi - x.lo)

theorem readRows_window (f : CsvRead.File) (x : CsvRead.Field) (hv : ∀ v ∈ x.vars, v.name ∈ f.header) :
    readRows f.header x.len x.lo x.hi 0 f.rows x.vars = (x.vars.map (updVar f.header x.len 0 (recordsOf f x)), .ok ()) := by
  rw [readRows_skip _ _ _ _ _ _ (Nat.zero_le _), readRows_ok _ _ _ _ _ _ (Nat.le_refl _) hv, Nat.sub_zero, Nat.sub_self]
  rfl

theorem get_map (x : CsvRead.Field) (g : Var → Var) (hg : ∀ v, (g v).name = v.name) (n : String) :
    CsvRead.Field.get { x with vars := x.vars.map g } n = (x.get n).map g := by
  simp only [Field.get, List.find?_map]
  congr 1
  apply congrArg (fun p => List.find? p x.vars)
  funext v
  simp [hg]

theorem get_of_mem {x : CsvRead.Field} {n : String} (h : n ∈ x.vars.map (·.name)) : ∃ v, x.get n = some v ∧ v ∈ x.vars ∧ v.name = n := by
  obtain ⟨w, hw, rfl⟩ := List.mem_map.1 h
  cases hf : x.get w.name with
  | none =>
    have := List.find?_eq_none.1 hf w hw
    simp at this
  | some v =>
    have h1 := List.find?_some hf
    exact ⟨v, rfl, List.mem_of_find?_eq_some hf, by simpa using h1⟩

/-- Reading a variable that has no value: all variables of the field get the records of the field. -/
theorem getValue_unread (f : CsvRead.File) (x : CsvRead.Field) {n : String} {v : Var} (hg : x.get n = some v) (he : x.empty = false)
    (hval : v.value = none) (hv : ∀ w ∈ x.vars, w.name ∈ f.header) (hw : recordsOf f x ≠ []) (hvn : v.name = n) :
    getValue f x n = ({ x with vars := x.vars.map (updVar f.header x.len 0 (recordsOf f x)) },
      .ok (some (setMany (List.replicate x.len .filler) 0 ((recordsOf f x).map (cellD f.header n))))) := by
  have hm := get_map x (updVar f.header x.len 0 (recordsOf f x)) (fun v => updVar_name ..) n
  simp only [getValue, hg, he, Bool.false_eq_true, if_false, hval, readRows_window f x hv] at hm ⊢
  rw [hm]
  simp [updVar, hw, hval, hvn]

/-- A variable that has a value shows it. -/
theorem getValue_read (f : CsvRead.File) (x : CsvRead.Field) {n : String} {v : Var} {c : List Cell} (hg : x.get n = some v)
    (he : x.empty = false) (hval : v.value = some c) : getValue f x n = (x, .ok (some c)) := by
  simp only [getValue, hg, he, Bool.false_eq_true, if_false, hval]

/-- A variable whose field has no records. -/
theorem getValue_nothing (f : CsvRead.File) (x : CsvRead.Field) {n : String} {v : Var} (hg : x.get n = some v) (he : x.empty = false)
    (hval : v.value = none) (hv : ∀ w ∈ x.vars, w.name ∈ f.header) (hw : recordsOf f x = []) :
    (getValue f x n).2 = .error .runtimeError := by
  have hr := readRows_window f x hv
  rw [hw] at hr
  have hid : updVar f.header x.len 0 [] = id := by funext v; simp [updVar]
  rw [hid, List.map_id] at hr
  obtain ⟨vars, len, lo, hi, e⟩ := x
  cases he
  simp only [getValue, hg, Bool.false_eq_true, if_false, hval, hr, Option.bind_some]

/-! ## Exceptions -/

theorem putRow_error {hdr : List String} (r : Rec) (i len : Nat) : ∀ (vs : List Var), (∃ v ∈ vs, v.name ∉ hdr) →
    (putRow hdr r i len vs).2 = .error .keyError
  | [], h => by obtain ⟨v, hv, -⟩ := h; simp at hv
  | v :: vs, h => by
    by_cases hv : v.name ∈ hdr
    · have hc := cellOf_eq_cellD r hv
      simp only [putRow, hc]
      apply putRow_error
      obtain ⟨w, hw, hn⟩ := h
      rcases List.mem_cons.1 hw with rfl | hw
      · exact absurd hv hn
      · exact ⟨w, hw, hn⟩
    · have hc : cellOf hdr r.cells v.name = none := by
        rw [← Option.not_isSome_iff_eq_none, cellOf_isSome]
        exact hv
      simp only [putRow, hc]

theorem getValue_error (f : CsvRead.File) (x : CsvRead.Field) {n : String} {v : Var} (hg : x.get n = some v) (he : x.empty = false)
    (hval : v.value = none) (hv : ∃ w ∈ x.vars, w.name ∉ f.header) (hw : recordsOf f x ≠ []) :
    (getValue f x n).2 = .error .keyError := by
  have key : (readRows f.header x.len x.lo x.hi 0 f.rows x.vars).2 = .error .keyError := by
    rw [readRows_skip _ _ _ _ _ _ (Nat.zero_le _), Nat.sub_zero]
    unfold recordsOf at hw
    cases hd : f.rows.drop x.lo with
    | nil => rw [hd] at hw; simp at hw
    | cons r rs =>
      rw [hd] at hw
      have hlt : ¬ x.hi ≤ x.lo := by
        intro hle
        rw [show x.hi - x.lo = 0 by omega] at hw
        simp at hw
      rw [readRows, if_neg (by omega), if_neg hlt]
      have := putRow_error r (x.lo - x.lo) x.len x.vars hv
      revert this
      cases putRow f.header r (x.lo - x.lo) x.len x.vars with
      | mk a b =>
        intro this
        simp only at this
        subst this
        rfl
  simp only [getValue, hg, he, Bool.false_eq_true, if_false, hval]
  revert key
  cases readRows f.header x.len x.lo x.hi 0 f.rows x.vars with
  | mk a b =>
    intro this
    simp only at this
    subst this
    rfl

/-! ## Plain files -/

theorem rows_plain {f : CsvRead.File} (h : PlainCsv f) : f.rows = f.body := by
  rw [File.rows, List.filter_eq_self]
  intro r hr
  have := (h.2 r hr).2
  cases hc : r.cells with
  | nil => exact absurd hc this
  | cons a b => simp

theorem lineCount_plain {f : CsvRead.File} (h : PlainCsv f) : f.lineCount = f.rows.length := by
  rw [rows_plain h, File.lineCount]
  have : ∀ l : List Rec, (∀ r ∈ l, r.lines = 1) → (l.map (·.lines)).sum = l.length := by
    intro l
    induction l with
    | nil => intro _; rfl
    | cons a t ih =>
      intro hl
      simp only [List.map_cons, List.sum_cons, List.length_cons]
      rw [hl a (List.mem_cons_self ..), ih fun r hr => hl r (List.mem_cons_of_mem _ hr)]
      omega
  exact this _ fun r hr => (h.2 r hr).1

theorem window_getElem? (f : CsvRead.File) (x : CsvRead.Field) (i : Nat) (h : i < x.hi - x.lo) : (recordsOf f x)[i]? = f.rows[x.lo + i]? := by
  rw [recordsOf, List.getElem?_take_of_lt h, List.getElem?_drop]

theorem showsRecords_window (f : CsvRead.File) (x : CsvRead.Field) {n : String} (hn : n ∈ f.header) :
    ShowsRecords f n x.lo ((recordsOf f x).map (cellD f.header n)) := by
  intro i h
  have hi : i < (recordsOf f x).length := by simpa using h
  have hlen : (recordsOf f x).length ≤ x.hi - x.lo := by simp [recordsOf]; omega
  rw [List.getElem_map]
  exact cellOf_isCell f (by rw [← window_getElem? f x i (by omega), List.getElem?_eq_getElem hi]) (cellOf_eq_cellD _ hn)

theorem window_length {f : CsvRead.File} {x : CsvRead.Field} (h : x.hi ≤ f.rows.length) : (recordsOf f x).length = x.hi - x.lo := by
  simp [recordsOf]; omega

/-! ## Opening -/

theorem openOn_eq (f : CsvRead.File) (size rank : Nat) : openOn f size rank = .ok
    (let n := f.lineCount
     let m := Mpi.effectiveSize size 2 n
     if rank < min n m then
       { vars := (columns f.header).map fun n => { name := n }
         len := splitPoint n m (rank + 1) - splitPoint n m rank
         lo := splitPoint n m rank
         hi := splitPoint n m (rank + 1) }
     else { vars := (columns f.header).map fun n => { name := n }, len := 0, lo := 0, hi := 0, empty := true }) := by
  simp only [openOn, getRankBounds_eq]
  split <;> rename_i h
  · cases h
  · by_cases hr : rank < min f.lineCount (Mpi.effectiveSize size 2 f.lineCount)
    · rw [if_pos hr] at h ⊢
      simp only [Except.ok.injEq, Option.some.injEq, Prod.mk.injEq] at h
      rw [h.1, h.2]
    · rw [if_neg hr] at h
      cases h
  · by_cases hr : rank < min f.lineCount (Mpi.effectiveSize size 2 f.lineCount)
    · rw [if_pos hr] at h
      cases h
    · rw [if_neg hr]

theorem openOn_fresh {f : CsvRead.File} {size rank : Nat} {x : CsvRead.Field} (ho : openOn f size rank = .ok x) (he : x.empty = false) :
    x.vars = ((columns f.header).map fun n => { name := n }) ∧ x.len = x.hi - x.lo ∧ x.lo < x.hi ∧ x.hi ≤ f.lineCount := by
  rw [openOn_eq] at ho
  simp only [Except.ok.injEq] at ho
  subst ho
  by_cases hr : rank < min f.lineCount (Mpi.effectiveSize size 2 f.lineCount)
  · simp only [if_pos hr]
    exact ⟨trivial, trivial, splitPoint_lt _ _ _ hr, splitPoint_le _ _ _ hr⟩
  · simp only [if_neg hr] at he
    cases he

theorem effectiveSize_one {n : Nat} (h : 0 < n) : Mpi.effectiveSize 1 2 n = 1 := by
  simp only [Mpi.effectiveSize]
  rw [if_neg (by omega), if_neg (by omega)]

theorem openOn_one {f : CsvRead.File} (h : 0 < f.lineCount) :
    openOn f 1 0 = .ok { vars := (columns f.header).map fun n => { name := n }, len := f.lineCount, lo := 0, hi := f.lineCount } := by
  rw [openOn_eq]
  simp only [effectiveSize_one h]
  rw [if_pos (by omega)]
  simp only [splitPoint_zero, splitPoint_size _ 1 (by omega : 0 < 1), Nat.zero_add, Nat.sub_zero]

theorem names_fresh (f : CsvRead.File) : ((columns f.header).map fun n => ({ name := n } : Var)).map (·.name) = columns f.header := by
  rw [List.map_map]
  exact List.map_id _

theorem get_fresh {f : CsvRead.File} {x : CsvRead.Field} (hx : x.vars = (columns f.header).map fun n => { name := n }) {n : String}
    (hn : n ∈ f.header) : x.get n = some { name := n } := by
  have : n ∈ x.vars.map (·.name) := by rw [hx, names_fresh]; exact mem_columns.2 hn
  obtain ⟨v, h1, h2, h3⟩ := get_of_mem this
  rw [hx] at h2
  obtain ⟨k, -, rfl⟩ := List.mem_map.1 h2
  rw [h1, ← h3]

theorem fresh_in_header {f : CsvRead.File} {x : CsvRead.Field} (hx : x.vars = (columns f.header).map fun n => { name := n }) :
    ∀ w ∈ x.vars, w.name ∈ f.header := by
  intro w hw
  rw [hx] at hw
  obtain ⟨k, hk, rfl⟩ := List.mem_map.1 hw
  exact mem_columns.1 hk

/-- Pieces between consecutive split points. -/
theorem flatMap_pieces {α : Type} (l : List α) (s : Nat → Nat) (h0 : s 0 = 0) (hm : ∀ i, s i ≤ s (i + 1)) : ∀ k,
    (List.range k).flatMap (fun i => (l.drop (s i)).take (s (i + 1) - s i)) = l.take (s k)
  | 0 => by simp [h0]
  | k + 1 => by
    rw [List.range_succ, List.flatMap_append, flatMap_pieces l s h0 hm k]
    simp only [List.flatMap_cons, List.flatMap_nil, List.append_nil]
    have := List.take_add (l := l) (i := s k) (j := s (k + 1) - s k)
    rw [show s k + (s (k + 1) - s k) = s (k + 1) by have := hm k; omega] at this
    exact this.symm

/-- A field after one of its variables was read. -/
def readAll (f : CsvRead.File) (x : CsvRead.Field) : CsvRead.Field := { x with vars := x.vars.map (updVar f.header x.len 0 (recordsOf f x)) }

theorem get_readAll (f : CsvRead.File) (x : CsvRead.Field) (n : String) :
    (readAll f x).get n = (x.get n).map (updVar f.header x.len 0 (recordsOf f x)) := get_map x _ (fun _ => updVar_name ..) n

/-- A field with all columns unread, whose records are in the file. -/
theorem readFresh {f : CsvRead.File} {x : CsvRead.Field} (hx : x.vars = (columns f.header).map fun n => { name := n })
    (he : x.empty = false) (hlen : x.len = x.hi - x.lo) (hlo : x.lo < x.hi) (hhi : x.hi ≤ f.rows.length) :
    (∀ n ∈ f.header, getValue f x n = (readAll f x, .ok (some ((recordsOf f x).map (cellD f.header n))))) ∧
    (∀ n ∈ f.header, getValue f (readAll f x) n = (readAll f x, .ok (some ((recordsOf f x).map (cellD f.header n))))) ∧
    (recordsOf f x).length = x.hi - x.lo ∧ recordsOf f x ≠ [] := by
  have hwl := window_length hhi
  have hw : recordsOf f x ≠ [] := by
    intro h
    rw [h] at hwl
    simp at hwl
    omega
  refine ⟨?_, ?_, hwl, hw⟩
  · intro n hn
    rw [getValue_unread f x (get_fresh hx hn) he rfl (fresh_in_header hx) hw rfl, setMany_full _ _ (by simp [hwl, hlen])]
    rfl
  · intro n hn
    have h1 : (readAll f x).get n = some { name := n, value := some ((recordsOf f x).map (cellD f.header n)) } := by
      rw [get_readAll, get_fresh hx hn, Option.map_some, updVar, if_neg hw, Option.getD_none, setMany_full _ _ (by simp [hwl, hlen])]
    have h2 : (readAll f x).empty = false := he
    simp only [getValue, h1, h2, Bool.false_eq_true, if_false]

end Ocgis.Proofs.CsvRead
