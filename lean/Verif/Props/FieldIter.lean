import Verif.Proofs.FieldFinish

/-! # C94: the records of a field -/

namespace Ocgis.Props
open Ocgis Ocgis.RecordIter Ocgis.Spec Ocgis.Collection Ocgis.FieldIter Ocgis.Masks

/-- C94 (one record per position).  With standard names, a field yields one record for every position of the first data variable that is
not left out, in row-major order, each with the geometry of the position.  A record has exactly these columns: the repeated ones, the
value of every data variable and follower under its name, and identifier, realization, time and level under their standard names.

Missing from the full property: other masked values should not decide which records there are, and names that clash should not hide
columns (see the counterexamples below). -/
theorem C94_records_partial {α : Type} (fmt : Fmt α) (fld : Fld α) (o : Opts α) (size : String → Nat) (lead : Var α) (rest : List (Var α))
    (hd : fld.data = lead :: rest) (he : fld.isEmpty = false) (hs : o.standardize = true) (hmel : o.melted = false)
    (hp : o.primaryMask = none) (hh : o.headerMap = none) (hv : o.variable_ = none) (hst : o.strict = false)
    (hf : FieldFits size fld o lead) (hn : NamesApart fld o ((fld.data ++ o.followers).map Var.name) (allRepeated fld o))
    (hsame : SameValues ((allRepeated fld o).filter fun p => p.1 != "CALC_KEY")) :
    ∃ (ps : List (List Nat)) (row : List Nat → Row α),
      fieldIter fmt fld o = .ok (ps.map fun idx => (geometryCell fld lead idx, row idx)) ∧
      ps.Pairwise (· < ·) ∧ (∀ idx, idx ∈ ps ↔ IdxIn lead.shape idx ∧ ¬ LeftOut fld o lead idx) ∧
      ∀ idx h c, Dict.get? (row idx) h = some c ↔ h ≠ "CALC_KEY" ∧ (h, c) ∈ recordColumns fmt fld o lead idx := by
  obtain ⟨heads, hheads, hit⟩ := fieldIter_eq fmt fld o size lead rest hd he hs hp hh hv hf
  obtain ⟨fs, ps, m1, -, m3, m4, m5⟩ := rows_field fmt fld o size lead rest hd hf hn.raw none (meltedReps (none.getD []))
  rw [emit_plain] at m5
  have hflat : ∀ l : List (Row α), (l.map fun r => [r]).flatten = l := by
    intro l
    induction l with
    | nil => rfl
    | cons a l ih => rw [List.map_cons, List.flatten_cons, ih]; rfl
  simp only [hflat] at m5
  obtain ⟨row, r1, r2⟩ := mapM_choose (fun idx => finish fld.geom o.strict false
      (some ((stdPairs fld heads).foldl (fun m p => Dict.set m p.1 p.2) []))
      (recordRowF (leadIt o lead) (leadIt o lead :: followersOf (leadIt o lead) (argsOf fmt fld o (o.followers ++ rest))) idx))
    (fun idx y => y.1 = geometryCell fld lead idx ∧
      ∀ h c, Dict.get? y.2 h = some c ↔ h ≠ "CALC_KEY" ∧ (h, c) ∈ recordColumns fmt fld o lead idx) ps
    (fun idx => by
      obtain ⟨row, h1, h2⟩ := finish_plain fmt fld o size lead rest hd hst hf hn hsame heads hheads idx
      exact ⟨_, h1, rfl, h2⟩)
  refine ⟨ps, fun idx => (row idx).2, ?_, m3, m4, fun idx => (r2 idx).2⟩
  rw [hit, hmel]
  simp only [Bool.false_eq_true, if_false, records, Option.map_none, Option.isSome_none]
  rw [m1]
  simp only
  rw [m5]
  simp only
  rw [List.mapM_map]
  refine r1.trans ?_
  congr 1
  apply List.map_congr_left
  intro idx _
  rw [← (r2 idx).1]

/-- C94 (melted).  Melted, a field yields for every position that is not left out one record per data variable, in order: its name, its
value, the columns repeated for it, and the followers and coordinates as before.  The data variables have repeated columns of the same
names.

Missing from the full property: a field whose only variable is melted yields nothing (`C94_melted_alone_counterexample`). -/
theorem C94_melted_partial {α : Type} (fmt : Fmt α) (fld : Fld α) (o : Opts α) (size : String → Nat) (lead : Var α) (rest : List (Var α))
    (hd : fld.data = lead :: rest) (he : fld.isEmpty = false) (hs : o.standardize = true) (hmel : o.melted = true)
    (hp : o.primaryMask = none) (hh : o.headerMap = none) (hv : o.variable_ = none) (hst : o.strict = false)
    (hf : FieldFits size fld o lead) (hn : NamesApart fld o (o.followers.map Var.name ++ ["VARIABLE", "VALUE"]) (allRepeated fld o))
    (hvv : "VARIABLE" ∉ rawNames fld o ∧ "VALUE" ∉ rawNames fld o)
    (hkeys : ∀ v ∈ fld.data, ∀ w ∈ fld.data, ∀ p ∈ v.repeatRecord.getD [], ∃ q ∈ w.repeatRecord.getD [], q.1 = p.1)
    (hsame : ∀ v ∈ fld.data, SameValues (fieldRepeated fld o ++ v.repeatRecord.getD []))
    (hfol : rest ≠ [] ∨ o.followers ≠ [] ∨ fld.geom ≠ none ∨ coordinates fld ≠ []) :
    ∃ (ps : List (List Nat)) (row : List Nat → Var α → Row α),
      fieldIter fmt fld o = .ok (ps.flatMap fun idx => fld.data.map fun v => (geometryCell fld lead idx, row idx v)) ∧
      ps.Pairwise (· < ·) ∧ (∀ idx, idx ∈ ps ↔ IdxIn lead.shape idx ∧ ¬ LeftOut fld o lead idx) ∧
      ∀ idx, ∀ v ∈ fld.data, ∀ h c, Dict.get? (row idx v) h = some c ↔ (h, c) ∈ meltedRecordColumns fmt fld o lead v idx := by
  obtain ⟨heads, hheads, hit⟩ := fieldIter_eq fmt fld o size lead rest hd he hs hp hh hv hf
  obtain ⟨fs, ps, m1, m2, m3, m4, m5⟩ := rows_field fmt fld o size lead rest hd hf hn.raw (some (fld.data.map Var.name)) (meltedReps fld.data)
  have hfs : fs.isEmpty = false := by
    rw [← Bool.not_eq_true, m2]
    rintro ⟨h1, h2⟩
    rw [List.append_eq_nil_iff] at h1
    unfold treesOf at h2
    simp only [List.append_eq_nil_iff, Option.toList_eq_nil_iff, Option.map_eq_none_iff] at h2
    rcases hfol with h | h | h | h
    · exact h h1.2
    · exact h h1.1
    · exact h h2.1.1.1
    · exact h (by simp [coordinates, h2.1.1.2, h2.1.2, h2.2])
  rw [hfs] at m5
  have one := finish_melted fmt fld o size lead rest hd hst hf hn hvv hkeys hsame heads hheads
  obtain ⟨mr, e1, e2⟩ := mapM_choose (fun idx => emit true (some (fld.data.map Var.name)) (meltedReps fld.data)
      (recordRowF (leadIt o lead) (leadIt o lead :: followersOf (leadIt o lead) (argsOf fmt fld o (o.followers ++ rest))) idx))
    (fun idx mr => ∃ row : Var α → Row α,
        mr.mapM (finish fld.geom o.strict true (some ((stdPairs fld heads).foldl (fun m p => Dict.set m p.1 p.2) [])))
          = .ok (fld.data.map fun v => (geometryCell fld lead idx, row v)) ∧
        ∀ v ∈ fld.data, ∀ h c, Dict.get? (row v) h = some c ↔ (h, c) ∈ meltedRecordColumns fmt fld o lead v idx) ps one
  rw [List.mapM_map, show (emit (!false) (some (fld.data.map Var.name)) (meltedReps fld.data)) = emit true _ _ from rfl] at m5
  have e1' : ps.mapM (fun idx => emit true (some (fld.data.map Var.name)) (meltedReps fld.data)
      (recordRowF (leadIt o lead) (leadIt o lead :: followersOf (leadIt o lead) (argsOf fmt fld o (o.followers ++ rest))) idx)) = .ok (ps.map mr) := e1
  rw [show ps.mapM (emit true (some (fld.data.map Var.name)) (meltedReps fld.data) ∘
      recordRowF (leadIt o lead) (leadIt o lead :: followersOf (leadIt o lead) (argsOf fmt fld o (o.followers ++ rest)))) = _ from e1'] at m5
  refine ⟨ps, fun idx => Classical.choose (e2 idx), ?_, m3, m4, fun idx => (Classical.choose_spec (e2 idx)).2⟩
  rw [hit, hmel]
  simp only [if_true, records, Option.map_some, Option.isSome_some, Option.getD_some]
  rw [m1]
  simp only
  rw [m5]
  simp only
  have key : ∀ l : List (List Nat), (l.map mr).flatten.mapM (finish fld.geom o.strict true
      (some ((stdPairs fld heads).foldl (fun m p => Dict.set m p.1 p.2) [])))
      = .ok (l.flatMap fun idx => fld.data.map fun v => (geometryCell fld lead idx, Classical.choose (e2 idx) v)) := by
    intro l
    induction l with
    | nil => rfl
    | cons idx l ih =>
      rw [List.map_cons, List.flatten_cons, List.mapM_append, (Classical.choose_spec (e2 idx)).1, ih, List.flatMap_cons]
      rfl
  exact key ps

/-- Only the columns of the map are made, and in strict mode all of them. -/
theorem mapped_keys {α : Type} (strict : Bool) (row : Row α) :
    ∀ (m : Dict String) (acc out : Row α), mapped strict row m acc = .ok out →
      (∀ h c, Dict.get? out h = some c → Dict.get? acc h = some c ∨ ∃ k, (k, h) ∈ m ∧ Dict.get? row k = some c) ∧
      (∀ h c, Dict.get? acc h = some c → ∃ c, Dict.get? out h = some c) ∧
      (strict = true → ∀ p ∈ m, ∃ c, Dict.get? out p.2 = some c)
  | [], acc, out, e => by
    simp only [mapped] at e
    cases e
    exact ⟨fun h c hc => .inl hc, fun h c hc => ⟨c, hc⟩, fun _ p hp => by cases hp⟩
  | (k, v) :: m, acc, out, e => by
    simp only [mapped] at e
    cases hk : Dict.get? row k with
    | some c' =>
      rw [hk] at e
      obtain ⟨i1, i2, i3⟩ := mapped_keys strict row m _ out e
      refine ⟨fun h c hc => ?_, fun h c hc => ?_, fun hs p hp => ?_⟩
      · rcases i1 h c hc with h1 | ⟨k', h1, h2⟩
        · rw [Dict.get?_set] at h1
          split at h1
          · rename_i hv
            cases h1
            exact .inr ⟨k, by rw [hv]; exact List.mem_cons_self, hk⟩
          · exact .inl h1
        · exact .inr ⟨k', List.mem_cons_of_mem _ h1, h2⟩
      · by_cases hv : h = v
        · exact i2 h c' (by rw [Dict.get?_set, if_pos hv])
        · exact i2 h c (by rw [Dict.get?_set, if_neg hv]; exact hc)
      · rcases List.mem_cons.1 hp with h1 | h1
        · rw [h1]
          exact i2 v c' (by rw [Dict.get?_set, if_pos rfl])
        · exact i3 hs p h1
    | none =>
      rw [hk] at e
      cases strict with
      | true => simp at e
      | false =>
        obtain ⟨i1, i2, -⟩ := mapped_keys false row m acc out (by simpa using e)
        refine ⟨fun h c hc => ?_, i2, fun hs => by cases hs⟩
        rcases i1 h c hc with h1 | ⟨k', h1, h2⟩
        · exact .inl h1
        · exact .inr ⟨k', List.mem_cons_of_mem _ h1, h2⟩

/-- What comes out of a map comes from somewhere. -/
theorem mem_mapM {β γ : Type} (f : β → Res γ) : ∀ (l : List β) (out : List γ), l.mapM f = .ok out → ∀ y ∈ out, ∃ x ∈ l, f x = .ok y
  | [], out, e, y, hy => by
    rw [List.mapM_nil] at e
    cases e
    cases hy
  | a :: l, out, e, y, hy => by
    rw [List.mapM_cons] at e
    cases ha : f a with
    | error _ => rw [ha] at e; cases e
    | ok b =>
      rw [ha] at e
      cases hl : l.mapM f with
      | error _ => rw [hl] at e; cases e
      | ok bs =>
        rw [hl] at e
        cases e
        rcases List.mem_cons.1 hy with rfl | h
        · exact ⟨a, List.mem_cons_self, ha⟩
        · obtain ⟨x, h1, h2⟩ := mem_mapM f l bs hl y h
          exact ⟨x, List.mem_cons_of_mem _ h1, h2⟩

/-- C94 (given names).  With a given map of names, strict records have exactly the columns of the map (calculation keys apart), in every
field and with every option, and each comes with a geometry just when the field has geometries. -/
theorem C94_strict {α : Type} (fmt : Fmt α) (fld : Fld α) (o : Opts α) (m : Dict String) (out : List (Option (Cell α) × Row α))
    (hh : o.headerMap = some m) (hst : o.strict = true) (hmel : o.melted = false) (h : fieldIter fmt fld o = .ok out) :
    ∀ r ∈ out, (r.1.isSome ↔ fld.geom.isSome) ∧ ∀ n, (∃ c, Dict.get? r.2 n = some c) ↔ n ≠ "CALC_KEY" ∧ ∃ k, (k, n) ∈ m := by
  intro r hr
  have hfin : ∃ row, finish fld.geom true false (some m) row = .ok r := by
    unfold fieldIter at h
    split at h
    · cases h; cases hr
    · split at h
      · cases h
      · split at h
        · cases h
        · split at h
          · cases h
          · split at h
            · cases h
            · simp only [meltedOf, hmel, Bool.false_eq_true, if_false, headerMapOf, hh, ite_self] at h
              unfold records at h
              split at h
              · cases h
              · split at h
                · cases h
                · rw [hst] at h
                  obtain ⟨x, -, hx⟩ := mem_mapM _ _ _ h r hr
                  exact ⟨x, hx⟩
  obtain ⟨row, hrow⟩ := hfin
  unfold finish at hrow
  split at hrow
  · cases hrow
  · rename_i g row' hg
    split at hrow
    · cases hrow
    · rename_i row'' hren
      simp only [Bool.false_eq_true, if_false] at hrow
      cases hrow
      refine ⟨?_, fun n => ?_⟩
      · unfold popGeom at hg
        split at hg
        · cases hg
          rename_i hn
          simp [hn]
        · split at hg
          · cases hg
          · cases hg
            rename_i hs _ _ _
            simp [hs]
      · simp only [rename, applyMap] at hren
        split at hren
        · cases hren
        · rename_i acc hacc
          simp only [meltedColumns, Bool.false_eq_true, if_false, if_true] at hren
          injection hren with e
          rw [e] at hacc
          obtain ⟨i1, -, i3⟩ := mapped_keys true row' m [] row'' hacc
          rw [show Dict.get? (Dict.erase row'' "CALC_KEY") n = if n = "CALC_KEY" then none else Dict.get? row'' n from ?_]
          · constructor
            · rintro ⟨c, hc⟩
              split at hc
              · cases hc
              · rename_i hn
                rcases i1 n c hc with h1 | ⟨k, h1, -⟩
                · cases h1
                · exact ⟨hn, k, h1⟩
            · rintro ⟨hn, k, hk⟩
              rw [if_neg hn]
              exact i3 rfl (k, n) hk
          · exact Dict.get?_erase row'' "CALC_KEY" n

/-- C94 (nothing to iterate).  An empty field has no records; a field without data variables is refused, and so are melted records
without standard names. -/
theorem C94_refused {α : Type} (fmt : Fmt α) (fld : Fld α) (o : Opts α) :
    (fld.isEmpty = true → fieldIter fmt fld o = .ok []) ∧
    (fld.isEmpty = false → o.melted = true → o.standardize = false → fieldIter fmt fld o = .error .valueError) ∧
    (fld.isEmpty = false → fld.data = [] → o.variable_ = none → fieldIter fmt fld o = .error .valueError) := by
  refine ⟨fun h => by simp [fieldIter, h], fun h1 h2 h3 => by simp [fieldIter, h1, h2, h3], fun h1 h2 h3 => ?_⟩
  unfold fieldIter
  simp only [h1, Bool.false_eq_true, if_false, FieldIter.leadOf, h3, h2]
  split <;> rfl

/-- C94 (made twice).  Attaching followers to the lead once more, as is done for the headers, changes nothing. -/
theorem C94_attached_twice {α : Type} (l1 l2 f : It α) (hd : l1.var.dims = l2.var.dims) (hs : l1.shape = l2.shape) :
    attached l2 (attached l1 f) = attached l2 f := by
  unfold attached
  rw [hd, hs]
  by_cases h : f.var.dims = l2.var.dims <;> simp [h]

/-! ## Examples -/

/-- Two variables over times and geometries; times with bounds, geometries with identifiers. -/
def c94Var (n : String) (k : Nat) (mask : Option (List Nat → Bool)) : Var Nat :=
  { name := n, dims := ["t", "g"], shape := [2, 2], value := fun i => k + 10 * i.headD 0 + (i.getD 1 0), mask := mask }

def c94Time : Coord Nat := { var := { name := "time", dims := ["t"], shape := [2], value := fun i => 50 + i.headD 0, bounds := some fun i => (40 + i, 60 + i) } }

def c94Geom : Var Nat := { name := "geom", dims := ["g"], shape := [2], value := fun i => 70 + i.headD 0, mask := some fun i => i.headD 0 == 1 }

def c94Ugid : Var Nat := { name := "UGID", dims := ["g"], shape := [2], value := fun i => 1 + i.headD 0 }

def c94Field : Fld Nat := { data := [c94Var "tas" 100 none, c94Var "pr" 200 (some fun i => i == [0, 0])], geom := some c94Geom, ugid := some c94Ugid, time := some c94Time }

def c94Opts : Opts Nat := { tabular := true, repeaters := some [("DID", 9)] }

def c94Fmt : Fmt Nat := { str := fun n => n + 1000, parts := fun n => some (n, n + 1, n + 2) }

theorem c94_fits (mel : Bool) : FieldFits (fun _ => 2) c94Field { c94Opts with melted := mel } (c94Var "tas" 100 none) := by
  refine ⟨?_, ?_, ?_, ?_, ?_, ?_, ?_⟩
  · intro v hv
    simp only [c94Field, c94Opts, List.append_nil, List.mem_cons, List.not_mem_nil, or_false] at hv
    rcases hv with rfl | rfl <;> exact ⟨⟨rfl, by decide⟩, by decide⟩
  · intro g hg
    cases hg
    exact ⟨⟨rfl, by decide⟩, by decide⟩
  · intro g u hg hu
    cases hg; cases hu
    exact ⟨rfl, rfl⟩
  · intro c hc
    simp only [coordinates, c94Field, Option.toList, List.nil_append, List.append_nil, List.mem_singleton] at hc
    subst hc
    exact ⟨⟨rfl, by decide⟩, by decide⟩
  · intro c hc _
    simp only [coordinates, c94Field, Option.toList, List.nil_append, List.append_nil, List.mem_singleton] at hc
    subst hc
    decide
  · intro c hc; cases hc
  · intro c hc
    simp only [coordinates, c94Field, Option.toList, List.nil_append, List.append_nil, List.mem_singleton] at hc
    subst hc
    exact .inl rfl

/-- The hypotheses are met by a field with two data variables, times and geometries. -/
example : ∃ (ps : List (List Nat)) (row : List Nat → Row Nat),
    fieldIter c94Fmt c94Field c94Opts = .ok (ps.map fun idx => (geometryCell c94Field (c94Var "tas" 100 none) idx, row idx)) ∧
    ps.Pairwise (· < ·) ∧ (∀ idx, idx ∈ ps ↔ IdxIn [2, 2] idx ∧ ¬ LeftOut c94Field c94Opts (c94Var "tas" 100 none) idx) ∧
    ∀ idx h c, Dict.get? (row idx) h = some c ↔ h ≠ "CALC_KEY" ∧ (h, c) ∈ recordColumns c94Fmt c94Field c94Opts (c94Var "tas" 100 none) idx :=
  C94_records_partial c94Fmt c94Field c94Opts (fun _ => 2) (c94Var "tas" 100 none) [c94Var "pr" 200 (some fun i => i == [0, 0])] rfl rfl rfl rfl rfl rfl rfl rfl
    (c94_fits false) ⟨by decide +kernel, by decide +kernel, by decide +kernel, by decide +kernel⟩ (by unfold SameValues; decide +kernel)

/-- So it is with melted records. -/
example : ∃ (ps : List (List Nat)) (row : List Nat → Var Nat → Row Nat),
    fieldIter c94Fmt c94Field { c94Opts with melted := true } = .ok (ps.flatMap fun idx => c94Field.data.map fun v =>
      (geometryCell c94Field (c94Var "tas" 100 none) idx, row idx v)) ∧
    ps.Pairwise (· < ·) ∧ (∀ idx, idx ∈ ps ↔ IdxIn [2, 2] idx ∧ ¬ LeftOut c94Field { c94Opts with melted := true } (c94Var "tas" 100 none) idx) ∧
    ∀ idx, ∀ v ∈ c94Field.data, ∀ h c, Dict.get? (row idx v) h = some c ↔
      (h, c) ∈ meltedRecordColumns c94Fmt c94Field { c94Opts with melted := true } (c94Var "tas" 100 none) v idx :=
  C94_melted_partial c94Fmt c94Field { c94Opts with melted := true } (fun _ => 2) (c94Var "tas" 100 none) [c94Var "pr" 200 (some fun i => i == [0, 0])]
    rfl rfl rfl rfl rfl rfl rfl rfl (c94_fits true) ⟨by decide +kernel, by decide +kernel, by decide +kernel, by decide +kernel⟩ (by decide +kernel)
    (by decide +kernel) (by
      intro v hv
      simp only [c94Field, List.mem_cons, List.not_mem_nil, or_false] at hv
      rcases hv with rfl | rfl <;> (unfold SameValues; decide +kernel)) (.inl (by simp))

/-- The first record: geometry 70, the repeated column, identifier, time with bounds and parts, and the two variables. -/
example : (fieldIter c94Fmt c94Field c94Opts).toOption.bind (fun l => l.head?) = some (some (.data (some 70)),
    [("DID", .data (some 9)), ("UGID", .data (some 1)), ("TIME", .data (some 1050)), ("LB_TIME", .data (some 1040)), ("UB_TIME", .data (some 1060)),
     ("YEAR", .data (some 50)), ("MONTH", .data (some 51)), ("DAY", .data (some 52)), ("tas", .data (some 100)), ("pr", .data none)]) := by
  decide +kernel

/-- Strict records under given names. -/
example : (fieldIter c94Fmt c94Field { c94Opts with headerMap := some [("pr", "rain"), ("time", "when")], strict := true }).toOption.map (fun l => l.map (·.2.map (·.1))) =
    some [["rain", "when"], ["rain", "when"]] := by
  decide +kernel

example : attached (mkIt (c94Var "tas" 100 none) false none none true) (attached (mkIt (c94Var "pr" 0 none) true none none true)
    (mkIt c94Geom false none none true)) = attached (mkIt (c94Var "tas" 100 none) false none none true) (mkIt c94Geom false none none true) :=
  C94_attached_twice _ _ _ rfl rfl

/-- A variable given by the caller is shown as if it were the only data variable of the field: no other data variable is in the records. -/
theorem C94_given {α : Type} (fmt : Fmt α) (fld : Fld α) (o : Opts α) (v : Var α) (hv : o.variable_ = some v) (hm : o.melted = false) :
    fieldIter fmt fld o = fieldIter fmt { fld with data := [v] } { o with variable_ := none } := by
  cases fld; cases o
  simp only at hv hm
  subst hv; subst hm
  rfl

/-- Given one variable, the other one is not in the records. -/
example : (fieldIter c94Fmt c94Field { c94Opts with variable_ := some (c94Var "pr" 200 none) }).toOption.map (fun l => l.map (·.2.map (·.1))) =
    some (List.replicate 2 ["DID", "UGID", "TIME", "LB_TIME", "UB_TIME", "YEAR", "MONTH", "DAY", "pr"]) := by
  decide +kernel
/-! ## Disagreements -/

/-- A record is lost where the first data variable is masked, though the second has a value there; with the variables in the other
order it is kept. -/
theorem C94_first_masked_counterexample :
    let a := c94Var "tas" 100 (some fun i => i == [0, 0])
    let b := c94Var "pr" 200 none
    (fieldIter c94Fmt { data := [a, b] } {}).toOption.map List.length = some 3 ∧
    (fieldIter c94Fmt { data := [b, a] } {}).toOption.map List.length = some 4 := by
  decide +kernel

/-- Naming another variable as primary mask changes nothing: the first data variable still decides. -/
theorem C94_primary_mask_counterexample :
    let a := c94Var "tas" 100 (some fun i => i == [0, 0])
    let b := c94Var "pr" 200 none
    fieldIter c94Fmt { data := [a, b] } { primaryMask := some "pr" } = fieldIter c94Fmt { data := [a, b] } {} ∧
    (fieldIter c94Fmt { data := [a, b] } { primaryMask := some "pr" }).toOption.map List.length = some 3 := by
  decide +kernel

/-- Melted records of a chosen variable fail. -/
theorem C94_melted_variable_counterexample :
    fieldIter c94Fmt c94Field { melted := true, variable_ := some (c94Var "tas" 100 none) } = .error .unboundLocal := by
  decide +kernel

/-- A field with one data variable and nothing else has no melted records. -/
theorem C94_melted_alone_counterexample :
    fieldIter c94Fmt { data := [c94Var "tas" 100 none] } { melted := true } = .ok [] ∧
    (fieldIter c94Fmt { data := [c94Var "tas" 100 none] } {}).toOption.map List.length = some 4 := by
  decide +kernel

/-- A data variable called `TIME` takes the place of the time. -/
theorem C94_name_counterexample :
    (fieldIter c94Fmt { data := [c94Var "TIME" 100 none], time := some c94Time } {}).toOption.bind (fun l => l.head?) =
      some (none, [("TIME", .data (some 100)), ("LB_TIME", .data (some 40)), ("UB_TIME", .data (some 60))]) := by
  decide +kernel

/-- A realization with bounds cannot be iterated, though a time with bounds can. -/
theorem C94_realization_bounds_counterexample :
    fieldIter c94Fmt { data := [c94Var "tas" 100 none], realization := some c94Time } {} = .error .typeError ∧
    (fieldIter c94Fmt { data := [c94Var "tas" 100 none], time := some c94Time } {}).toOption.map List.length = some 4 := by
  decide +kernel

/-- A coordinate made from a dataset cannot have repeated columns. -/
theorem C94_dataset_counterexample :
    fieldIter c94Fmt { data := [c94Var "tas" 100 none], time := some { var := { c94Time.var with repeatRecord := some [("A", 1)] }, did := some 3 } } {} =
      .error .typeError := by
  decide +kernel

/-- Of columns repeated for several data variables, only those of the last are shown. -/
theorem C94_repeated_counterexample :
    (fieldIter c94Fmt { data := [{ c94Var "tas" 100 none with repeatRecord := some [("SRC_VAR", 1)] },
      { c94Var "pr" 200 none with repeatRecord := some [("SRC_VAR", 2)] }] } {}).toOption.bind (fun l => l.head?) =
      some (none, [("SRC_VAR", .data (some 2)), ("tas", .data (some 100)), ("pr", .data (some 200))]) := by
  decide +kernel

/-- A masked time is not shown, but its bounds are. -/
theorem C94_masked_bounds_counterexample :
    (fieldIter c94Fmt { data := [c94Var "tas" 100 none], time := some { var := { c94Time.var with mask := some fun _ => true } } }
      { allowMasked := true }).toOption.bind (fun l => l.head?) =
      some (none, [("TIME", .data none), ("LB_TIME", .data (some 40)), ("UB_TIME", .data (some 60)), ("tas", .data (some 100))]) := by
  decide +kernel

/-- Strict records of a field with times need year, month and day, which only tabular drivers make. -/
theorem C94_strict_counterexample :
    fieldIter c94Fmt { data := [c94Var "tas" 100 none], time := some c94Time } { strict := true } = .error .keyError ∧
    (fieldIter c94Fmt { data := [c94Var "tas" 100 none], time := some c94Time } { strict := true, tabular := true }).toOption.bind (fun l => l.head?) =
      some (none, [("TIME", .data (some 1050)), ("LB_TIME", .data (some 1040)), ("UB_TIME", .data (some 1060)),
        ("YEAR", .data (some 50)), ("MONTH", .data (some 51)), ("DAY", .data (some 52))]) := by
  decide +kernel

end Ocgis.Props
