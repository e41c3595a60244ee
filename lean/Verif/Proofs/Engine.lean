import Verif.Spec.Engine
/-!
# Lemmas
-/
namespace Ocgis.Props
open Ocgis Ocgis.Engine Ocgis.Spec
open Ocgis.Vm (Vm Comm Prog freeSubcomm setSub setComm)

theorem freeQuietly_spec (vm : Vm) (n : String) (h : vm.dummy = false) :
    freeQuietly vm n = { vm with sub := setSub vm.sub n none } := by
  unfold freeQuietly freeSubcomm
  simp only [h, Bool.false_eq_true, if_false]
  cases hs : vm.sub n with
  | some c => rfl
  | none =>
    have : setSub vm.sub n none = vm.sub := by
      funext x
      by_cases hx : x = n
      · subst hx; simp [setSub, hs]
      · simp [setSub, hx]
    rw [this]
    cases vm
    subst h
    rfl

theorem freeAll_spec (names : List String) (vm : Vm) (h : vm.dummy = false) :
    names.foldl freeQuietly vm = { vm with sub := fun x => if x ∈ names then none else vm.sub x } := by
  induction names generalizing vm with
  | nil => simp
  | cons n ns ih =>
    rw [List.foldl_cons, freeQuietly_spec vm n h, ih { vm with sub := setSub vm.sub n none } h]
    simp only [Vm.mk.injEq, true_and, and_true]
    funext x
    by_cases hx : x = n
    · subst hx; simp [setSub]
    · simp [setSub, hx]

theorem freeAll_dummy (names : List String) (vm : Vm) (h : vm.dummy = true) : names.foldl freeQuietly vm = vm := by
  induction names with
  | nil => rfl
  | cons n ns ih =>
    rw [List.foldl_cons]
    have : freeQuietly vm n = vm := by simp [freeQuietly, freeSubcomm, h]
    rw [this, ih]

theorem outputCrs_eq (o : Ops) (back : Option Crs) (f : Field) :
    outputCrs o back f = { f with crs := o.outputCrs.getD (back.getD f.crs) } := by
  unfold outputCrs
  cases o.outputCrs with
  | none => cases back <;> simp
  | some c =>
    cases back with
    | none => simp
    | some b => by_cases h : c = .geographic <;> simp [h]

theorem select_promised (o : Ops) (f : Field) (hf : Fresh f) (hk : PromiseKept o f) (g : Option Geometry) (s : State)
    (hcells : s.field = { f with crs := s.field.crs })
    (hcrs : o.outputCrs = none → s.back.getD s.field.crs = f.crs)
    (hraw : (o.hasCalc = true ∧ o.raw = true ∧ o.aggregate = false) → s.field.crs = f.crs) :
    select o s g = promised o f g := by
  obtain ⟨h1, h2, h3⟩ := hk
  obtain ⟨f1, f2, f3, f4⟩ := hf
  have hc : s.field.cells = f.cells := by rw [hcells]
  have hsel1 : selected f g = [] → cut o s.field g = .error .extentError := by
    cases g with
    | none => intro h; exact absurd h f1
    | some g => intro h; simp only [selected] at h; simp [cut, subset, hc, h, h1]
  have hsel2 : selected f g ≠ [] → cut o s.field g = .ok { s.field with cells := selected f g } := by
    cases g with
    | none => intro _; simp only [cut, selected]; rw [← hc]
    | some g => intro h; simp only [selected] at h ⊢; simp only [cut, subset, hc]; rw [if_neg h]
  unfold select promised
  by_cases hs : selected f g = []
  · rw [hsel1 hs, if_pos hs]
  · rw [hsel2 hs, if_neg hs]
    simp only
    have hst : ({ s.field with cells := selected f g } : Field) =
        { f with crs := s.field.crs, cells := selected f g } := by rw [hcells]
    rw [hst]
    clear hst hsel1 hsel2 hcells hc
    generalize s.field.crs = c at *
    generalize selected f g = cells at *
    unfold refine calculate
    simp only [update, outputCrs_eq]
    cases hcalc : o.hasCalc <;> cases hra : o.raw <;> cases hag : o.aggregate <;> cases hout : o.outputCrs <;>
      cases hreg : o.regrid <;> cases hsrc : f.regridSource <;> simp_all

theorem rotatedPole_cells (o : Ops) (b : Bool) (f : Field) :
    (rotatedPole o b f).field = { f with crs := (rotatedPole o b f).field.crs } := by
  unfold rotatedPole
  cases f.crs with
  | rotated p => by_cases h : (b || o.aggregate || o.clip) = true <;> simp [h]
  | geographic => rfl
  | projected n => rfl

theorem rotatedPole_back (o : Ops) (b : Bool) (f : Field) :
    (rotatedPole o b f).back.getD (rotatedPole o b f).field.crs = f.crs := by
  unfold rotatedPole
  cases h : f.crs with
  | rotated p => by_cases hh : (b || o.aggregate || o.clip) = true <;> simp [hh, h]
  | geographic => simp [h]
  | projected n => simp [h]

theorem rotatedPole_other (o : Ops) (b : Bool) (f : Field) (h : ∀ p, f.crs ≠ .rotated p) : rotatedPole o b f = ⟨f, none⟩ := by
  unfold rotatedPole
  cases hc : f.crs with
  | rotated p => exact absurd hc (h p)
  | geographic => rfl
  | projected n => rfl

/-- The loop keeps the promise as long as the field object only differs from the dataset's in a coordinate system that does
not matter. -/
theorem geometries_promised (o : Ops) (f : Field) (hf : Fresh f) (hk : PromiseKept o f) (gs : List (Option Geometry)) (s : State)
    (hcells : s.field = { f with crs := s.field.crs })
    (hcrs : s.field.crs = f.crs ∨ o.outputCrs ≠ none)
    (hone : (∀ p, f.crs ≠ .rotated p) ∨ o.outputCrs ≠ none ∨ gs.length ≤ 1) :
    ∃ s', geometries o s gs = ((untilError (gs.map (promised o f))).1, (untilError (gs.map (promised o f))).2, s') := by
  induction gs generalizing s with
  | nil => exact ⟨s, rfl⟩
  | cons g gs ih =>
    have hkr := hk.2.2
    have e1 : (rotatedPole o g.isSome s.field).field = { f with crs := (rotatedPole o g.isSome s.field).field.crs } := by
      rw [rotatedPole_cells]
      simp only [Field.mk.injEq, true_and]
      generalize s.field = sf at hcells
      rw [hcells]
      exact ⟨rfl, rfl, rfl, rfl, rfl⟩
    have hsel : select o (rotatedPole o g.isSome s.field) g = promised o f g := by
      apply select_promised o f hf hk g _ e1
      · intro hn
        rcases hcrs with h | h
        · rw [rotatedPole_back, h]
        · exact absurd hn h
      · rintro ⟨h1, h2, h3⟩
        rcases hkr h1 h2 with h | ⟨h, h'⟩
        · rw [h3] at h; cases h
        · rcases hcrs with hc | hc
          · rw [rotatedPole_other _ _ _ (by rw [hc]; exact h')]; exact hc
          · exact absurd h hc
    simp only [geometries, oneGeometry, hsel]
    cases hp : promised o f g with
    | error e => exact ⟨rotatedPole o g.isSome s.field, by simp [untilError, hp]⟩
    | ok out =>
      have : ∃ s', geometries o (rotatedPole o g.isSome s.field) gs =
          ((untilError (gs.map (promised o f))).1, (untilError (gs.map (promised o f))).2, s') := by
        rcases hone with h | h | h
        · apply ih _ e1 _ (Or.inl h)
          rcases hcrs with hc | hc
          · left; rw [rotatedPole_other _ _ _ (by rw [hc]; exact h)]; exact hc
          · exact Or.inr hc
        · exact ih _ e1 (Or.inr h) (Or.inr (Or.inl h))
        · have : gs = [] := by cases gs with
            | nil => rfl
            | cons => simp at h
          subst this
          exact ⟨_, rfl⟩
      obtain ⟨s', hs'⟩ := this
      refine ⟨s', ?_⟩
      simp [hs', untilError, hp]

theorem untilError_append {α : Type} (xs ys : List (Res α)) :
    untilError (xs ++ ys) = match (untilError xs).2 with
      | some e => ((untilError xs).1, some e)
      | none => ((untilError xs).1 ++ (untilError ys).1, (untilError ys).2) := by
  induction xs with
  | nil => simp [untilError]
  | cons x xs ih =>
    cases x with
    | error e => simp [untilError]
    | ok a =>
      simp only [List.cons_append, untilError, ih]
      cases (untilError xs).2 <;> rfl

end Ocgis.Props
