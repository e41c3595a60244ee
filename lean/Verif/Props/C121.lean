import Verif.Proofs.RegridDest
/-!
# C121: Choosing the dataset to regrid to
-/
namespace Ocgis.Props
open Spec Ocgis.RegridDest Ocgis.Text Proofs.RegridDest

private def coarse : Dataset := ⟨false, "coarse".toList, false, false⟩
private def fineGrid : Dataset := ⟨false, "fine".toList, true, false⟩
private def bigName : Dataset := ⟨false, "CMIP5".toList, true, false⟩

/-- A name stands for the dataset with that name. Missing: the name is looked up in lower case without blanks around it (`C121_capital_never`,
`C121_blank_never`), it must not be shared by a later dataset (`C121_repeated_never`), and there must be requests only (`C121_field_never`). -/
theorem C121_named_partial (s : Text) (hs : LookedUp s) (ds : List Dataset) (hf : ∀ d ∈ ds, d.isField = false) (hsrc : ∃ d ∈ ds, d.source = true)
    (i : Nat) (d : Dataset) (hi : ds[i]? = some d) (hd : d.name = s) (hu : ∀ (j : Nat) (e : Dataset), ds[j]? = some e → e.name = s → j = i) :
    destination (.text s) ds = .ok (.member i) := by
  unfold destination choose
  rw [format_lookedUp s hs]
  simp only
  obtain ⟨r, hr, ⟨j, e, hj, hn, rfl, -⟩ | ⟨hn, -⟩⟩ := find_spec s ds 0 none hf
  · have := hu j e hj hn
    subst this
    rw [hr]
    simp only [Nat.zero_add]
    rw [if_neg (source_some hsrc)]
  · exact absurd hd (hn d (List.mem_of_getElem? hi))

example : LookedUp "coarse".toList ∧ destination (.text "coarse".toList) [fineGrid, coarse] = .ok (.member 1) := by
  refine ⟨⟨?_, ?_, by decide⟩, by decide⟩
  · unfold Capital
    decide
  · exact (Ocgis.Props.trimmed_iff _ _).2 (by decide)

/-- Of several datasets with the name the last one is chosen. -/
theorem C121_repeated_never (s : Text) (hs : LookedUp s) (ds : List Dataset) (hf : ∀ d ∈ ds, d.isField = false) (hsrc : ∃ d ∈ ds, d.source = true)
    (i : Nat) (d : Dataset) (hi : ds[i]? = some d) (hd : d.name = s) (hl : ∀ (j : Nat) (e : Dataset), i < j → ds[j]? = some e → e.name ≠ s) :
    destination (.text s) ds = .ok (.member i) := by
  unfold destination choose
  rw [format_lookedUp s hs]
  simp only
  obtain ⟨r, hr, ⟨j, e, hj, hn, rfl, hl'⟩ | ⟨hn, -⟩⟩ := find_spec s ds 0 none hf
  · have : j = i := by
      rcases Nat.lt_trichotomy i j with h | h | h
      · exact absurd hn (hl j e h hj)
      · exact h.symm
      · exact absurd hd (hl' i d h hi)
    subst this
    rw [hr]
    simp only [Nat.zero_add]
    rw [if_neg (source_some hsrc)]
  · exact absurd hd (hn d (List.mem_of_getElem? hi))

example : destination (.text "fine".toList) [fineGrid, coarse, fineGrid] = .ok (.member 2) := by decide

/-- A dataset with a capital letter in its name is never found by name, whatever text is given. -/
theorem C121_capital_never (s : Text) (ds : List Dataset) (hdest : ∀ d ∈ ds, d.dest = false) (i : Nat) (d : Dataset) (hi : ds[i]? = some d)
    (c : Char) (hc : c ∈ d.name) (hcap : Capital c) : destination (.text s) ds ≠ .ok (.member i) := by
  unfold destination
  have hno : ∀ t : Text, (∀ x ∈ t, ¬ Capital x) → choose (.text t) ds ≠ .ok (.member i) := by
    intro t ht h
    unfold choose at h
    simp only at h
    by_cases hf : ∃ d ∈ ds, d.isField = true
    · rw [find_field t ds 0 none hf] at h
      cases h
    · have hf' : ∀ d ∈ ds, d.isField = false := by
        intro d hd
        cases hb : d.isField with
        | false => rfl
        | true => exact absurd ⟨d, hd, hb⟩ hf
      obtain ⟨r, hr, ⟨j, e, hj, hn, rfl, -⟩ | ⟨hn, rfl⟩⟩ := find_spec t ds 0 none hf'
      · rw [hr] at h
        simp only [Nat.zero_add] at h
        cases h
        rw [hi] at hj
        cases hj
        exact ht c (hn ▸ hc) hcap
      · rw [hr] at h
        cases h
  have hlow : ∀ x ∈ strip (lower s), ¬ Capital x := by
    intro x hx
    obtain ⟨y, -, rfl⟩ := List.mem_map.1 (strip_mem _ x hx)
    exact lower_not_capital y
  unfold format
  simp only
  by_cases hn : strip (lower s) = "none".toList
  · rw [if_pos hn]
    unfold choose
    simp only [(flagged_none ds 0 hdest).1, (flagged_none ds 0 hdest).2, List.length_nil]
    simp
  · rw [if_neg hn]
    intro h
    cases hch : choose (.text (strip (lower s))) ds with
    | error e => rw [hch] at h; cases h
    | ok r =>
      rw [hch] at h
      cases r with
      | none => cases h
      | object =>
        simp only at h
        split at h <;> cases h
      | member j =>
        simp only at h
        split at h
        · cases h
        · cases h
          exact hno _ hlow hch

example : destination (.text "CMIP5".toList) [bigName] = .error .definitionValidation := by decide

/-- Blanks around a text do not matter, so a name with blanks around it cannot be given. -/
theorem C121_blank_never (a s b : Text) (ha : ∀ c ∈ a, Blank c) (hb : ∀ c ∈ b, Blank c) (hs : LookedUp s) (ds : List Dataset)
    (hcap : ∀ c ∈ a ++ b, ¬ Capital c) : destination (.text (a ++ s ++ b)) ds = destination (.text s) ds := by
  have hl : lower (a ++ s ++ b) = a ++ s ++ b := lower_text _ (by
    intro c hc
    simp only [List.mem_append] at hc hcap
    rcases hc with (hc | hc) | hc
    · exact hcap c (Or.inl hc)
    · exact hs.1 c hc
    · exact hcap c (Or.inr hc))
  have ht : strip (a ++ s ++ b) = s := Ocgis.Props.trimmed_strip _ _ ⟨⟨a, b, rfl, ha, hb⟩, hs.2.1.2⟩
  unfold destination
  rw [format_lookedUp s hs]
  unfold format
  simp only [hl, ht, hs.2.2, if_false]

/-- The word `none` in any case stands for no name: flags decide. -/
theorem C121_none (s : Text) (h : strip (lower s) = "none".toList) (ds : List Dataset) : destination (.text s) ds = destination .nothing ds := by
  unfold destination format
  simp only [h, if_true]

example : strip (lower " None".toList) = "none".toList := by decide

/-- A name that no dataset has is refused. -/
theorem C121_unknown (s : Text) (hs : LookedUp s) (ds : List Dataset) (hf : ∀ d ∈ ds, d.isField = false) (h : ∀ d ∈ ds, d.name ≠ s) :
    destination (.text s) ds = .error .definitionValidation := by
  unfold destination choose
  rw [format_lookedUp s hs]
  simp only
  obtain ⟨r, hr, ⟨j, e, hj, hn, -, -⟩ | ⟨-, rfl⟩⟩ := find_spec s ds 0 none hf
  · exact absurd hn (h e (List.mem_of_getElem? hj))
  · rw [hr]

/-- If a field is among the datasets a name is never accepted. -/
theorem C121_field_never (s : Text) (hs : LookedUp s) (ds : List Dataset) (hf : ∃ d ∈ ds, d.isField = true) :
    destination (.text s) ds = .error .attributeError := by
  unfold destination choose
  rw [format_lookedUp s hs]
  simp only [find_field s ds 0 none hf]

/-- Without an argument the one dataset with the flag is chosen. -/
theorem C121_flag (ds : List Dataset) (hsrc : ∃ d ∈ ds, d.source = true) (i : Nat) (d : Dataset) (hi : ds[i]? = some d) (hd : d.dest = true)
    (hu : ∀ (j : Nat) (e : Dataset), ds[j]? = some e → e.dest = true → j = i) : destination .nothing ds = .ok (.member i) := by
  obtain ⟨h1, h2⟩ := flagged_one ds 0 i d hi hd hu
  unfold destination choose format
  simp only [h1, h2, Nat.zero_add]
  rw [if_neg (by omega)]
  simp only
  rw [if_neg (source_some hsrc)]

example : destination .nothing [fineGrid, { coarse with dest := true }] = .ok (.member 1) := by decide

/-- Two datasets with the flag are refused. -/
theorem C121_two (ds : List Dataset) (i j : Nat) (a b : Dataset) (hi : ds[i]? = some a) (hj : ds[j]? = some b) (hij : i < j) (ha : a.dest = true)
    (hb : b.dest = true) : destination .nothing ds = .error .definitionValidation := by
  unfold destination choose format
  simp only [if_pos (filter_two hi hj hij ha hb)]

/-- Without flags and argument nothing is regridded. -/
theorem C121_nothing (ds : List Dataset) (h : ∀ d ∈ ds, d.dest = false) :
    destination .nothing ds = .ok .none ∧ ∀ d ∈ ds, regridded .none d = false := by
  unfold destination choose format
  simp only [(flagged_none ds 0 h).1, (flagged_none ds 0 h).2, List.length_nil]
  exact ⟨by simp, fun d _ => rfl⟩

/-- If no dataset is a source every destination is refused. -/
theorem C121_source (g : Given) (ds : List Dataset) (h : ∀ d ∈ ds, d.source = false) (r : Dest) (hr : destination g ds = .ok r) : r = .none := by
  unfold destination at hr
  cases hc : choose (format g) ds with
  | error e => rw [hc] at hr; cases hr
  | ok d =>
    rw [hc] at hr
    cases d with
    | none => cases hr; rfl
    | member i => simp only [if_pos (source_none h)] at hr; cases hr
    | object => simp only [if_pos (source_none h)] at hr; cases hr

/-- An object of the argument is the destination, whatever flags there are. -/
theorem C121_object (ds : List Dataset) (h : ∃ d ∈ ds, d.source = true) : destination .object ds = .ok .object := by
  unfold destination choose format
  simp only [if_neg (source_some h)]

/-- With a destination exactly the datasets that are sources are regridded, the destination itself among them if it is one: nothing makes it an
exception, and it is enough for the check that there is a source. -/
theorem C121_self_never (d : Dataset) (hs : d.source = true) (hd : d.dest = true) :
    destination .nothing [d] = .ok (.member 0) ∧ regridded (.member 0) d = true := by
  refine ⟨C121_flag [d] ⟨d, by simp, hs⟩ 0 d rfl hd ?_, by simp [regridded, hs]⟩
  intro j e hj _
  cases j with
  | zero => rfl
  | succ j => simp at hj

/-- Which datasets are regridded. -/
theorem C121_regridded (r : Dest) (hr : r ≠ .none) (d : Dataset) : regridded r d = true ↔ d.source = true := by
  cases r <;> simp [regridded] at hr ⊢

end Ocgis.Props
