import Verif.Spec.ShpProcess
/-!
# Lemmas on adding identifiers to a shapefile
-/
namespace Ocgis.Proofs.ShpProcess
open Spec Ocgis.ShpProcess

theorem getProp_setProp_same (ps : List (String × Val)) (k : String) (v : Val) : getProp (setProp ps k v) k = some v := by
  unfold getProp
  induction ps with
  | nil => simp [setProp]
  | cons p ps ih =>
    unfold setProp
    by_cases h : p.1 = k
    · rw [if_pos h]; simp
    · rw [if_neg h, List.find?_cons_of_neg (by simpa using h)]
      exact ih

theorem getProp_setProp_other (ps : List (String × Val)) {k k' : String} (v : Val) (hk : k' ≠ k) :
    getProp (setProp ps k v) k' = getProp ps k' := by
  unfold getProp
  induction ps with
  | nil => simp [setProp, Ne.symm hk]
  | cons p ps ih =>
    unfold setProp
    by_cases h : p.1 = k
    · rw [if_pos h, List.find?_cons_of_neg (by simpa using Ne.symm hk), List.find?_cons_of_neg (by simpa [h] using Ne.symm hk)]
    · rw [if_neg h]
      by_cases h2 : p.1 = k'
      · rw [List.find?_cons_of_pos (by simpa using h2), List.find?_cons_of_pos (by simpa using h2)]
      · rw [List.find?_cons_of_neg (by simpa using h2), List.find?_cons_of_neg (by simpa using h2)]
        exact ih

theorem identified {γ : Type} (valid : γ → Bool) (clean : γ → γ) (identifier : String) (f : Feature γ) (i : Int) :
    IdentifiedAs valid clean identifier f
      { source valid clean f with props := setProp (source valid clean f).props identifier (.int i) } i := by
  have hp : (source valid clean f).props = f.props := by unfold source; split <;> rfl
  refine ⟨getProp_setProp_same .., ?_, ?_, ?_⟩
  · intro k hk
    rw [getProp_setProp_other _ _ hk, hp]
  · intro h; simp [source, h]
  · intro h; simp [source, h]

theorem source_props {γ : Type} (valid : γ → Bool) (clean : γ → γ) (f : Feature γ) : (source valid clean f).props = f.props := by
  unfold source; split <;> rfl

theorem toInt_ok (parse : String → Option Int) (v : Val) (i : Int) : toInt parse v = .ok i ↔ IntegerOf parse v i := by
  have near : ∀ q : Rat, CutTo q (if 0 ≤ q then q.floor else q.ceil) := by
    intro q
    by_cases h : 0 ≤ q
    · rw [if_pos h]
      have h1 := Rat.floor_le q
      have h2 := Rat.lt_floor (x := q)
      refine ⟨fun _ => ⟨h1, by grind⟩, fun h' => ?_⟩
      have : q = 0 := Rat.le_antisymm h' h
      subst this
      decide +kernel
    · rw [if_neg h]
      have h1 := Rat.le_ceil (x := q)
      have h2 := Rat.ceil_lt (x := q)
      exact ⟨fun h' => absurd h' h, fun _ => ⟨h1, h2⟩⟩
  have uniq : ∀ (q : Rat) (a b : Int), CutTo q a → CutTo q b → a = b := by
    intro q a b ha hb
    have key : ∀ a b : Int, (a : Rat) < (b : Rat) + 1 → a ≤ b := by
      intro a b h
      have h' : (a : Rat) < ((b + 1 : Int) : Rat) := by simpa using h
      have := Rat.intCast_lt_intCast.1 h'
      omega
    by_cases h : 0 ≤ q
    · have h1 := ha.1 h
      have h2 := hb.1 h
      have k1 := key a b (Std.lt_of_le_of_lt h1.1 h2.2)
      have k2 := key b a (Std.lt_of_le_of_lt h2.1 h1.2)
      omega
    · have h' : q ≤ 0 := Rat.le_of_lt (Rat.not_le.1 h)
      have h1 := ha.2 h'
      have h2 := hb.2 h'
      have k1 := key a b (by have := h1.2; have := h2.1; grind)
      have k2 := key b a (by have := h2.2; have := h1.1; grind)
      omega
  cases v with
  | int j => simp [toInt, IntegerOf]
  | real q =>
    simp only [toInt, Except.ok.injEq, IntegerOf]
    constructor
    · rintro rfl
      exact .inr (.inl ⟨q, rfl, near q⟩)
    · rintro (h | ⟨q', h, hc⟩ | ⟨s, h, -⟩)
      · cases h
      · cases h
        exact uniq q _ _ (near q) hc
      · cases h
  | text s =>
    simp only [toInt, IntegerOf]
    cases h : parse s with
    | none =>
      simp only [reduceCtorEq, false_iff]
      rintro (h' | ⟨q', h', -⟩ | ⟨s', h', h2⟩)
      · cases h'
      · cases h'
      · cases h'; rw [h] at h2; cases h2
    | some j =>
      simp only [Except.ok.injEq]
      constructor
      · rintro rfl
        exact .inr (.inr ⟨s, rfl, h⟩)
      · rintro (h' | ⟨q', h', -⟩ | ⟨s', h', h2⟩)
        · cases h'
        · cases h'
        · cases h'; rw [h] at h2; cases h2; rfl
  | nothing =>
    simp only [toInt, reduceCtorEq, false_iff, IntegerOf]
    rintro (h' | ⟨q', h', -⟩ | ⟨s', h', -⟩) <;> cases h'

/-- The loop with counted identifiers. -/
theorem loop_count {γ : Type} (parse : String → Option Int) (valid : γ → Bool) (clean : γ → γ) (identifier : String) :
    ∀ (fs : List (Feature γ)) (ctr : Nat), ∃ out, loop parse valid clean identifier none ctr fs = (out, .ok ()) ∧ out.length = fs.length ∧
      ∀ (i : Nat) f g, fs[i]? = some f → out[i]? = some g → IdentifiedAs valid clean identifier f g ((ctr + i : Nat) : Int)
  | [], _ => ⟨[], rfl, rfl, by simp⟩
  | f :: fs, ctr => by
    obtain ⟨out, h1, h2, h3⟩ := loop_count parse valid clean identifier fs (ctr + 1)
    refine ⟨{ source valid clean f with props := setProp (source valid clean f).props identifier (.int ctr) } :: out,
      by simp only [loop, identify, h1], by simp [h2], ?_⟩
    intro i f' g hf hg
    cases i with
    | zero =>
      simp only [List.getElem?_cons_zero, Option.some.injEq] at hf hg
      subst hf; subst hg
      exact identified ..
    | succ i =>
      simp only [List.getElem?_cons_succ] at hf hg
      have := h3 i f' g hf hg
      rwa [show ctr + 1 + i = ctr + (i + 1) by omega] at this

/-- The loop with identifiers from a property. -/
theorem loop_copy {γ : Type} (parse : String → Option Int) (valid : γ → Bool) (clean : γ → γ) (identifier a : String) :
    ∀ (fs : List (Feature γ)) (ctr : Nat), (∀ f ∈ fs, ∃ v i, getProp f.props a = some v ∧ IntegerOf parse v i) →
      ∃ out, loop parse valid clean identifier (some a) ctr fs = (out, .ok ()) ∧ out.length = fs.length ∧
      ∀ (i : Nat) f g, fs[i]? = some f → out[i]? = some g →
        ∃ v j, getProp f.props a = some v ∧ IntegerOf parse v j ∧ IdentifiedAs valid clean identifier f g j
  | [], _, _ => ⟨[], rfl, rfl, by simp⟩
  | f :: fs, ctr, h => by
    obtain ⟨out, h1, h2, h3⟩ := loop_copy parse valid clean identifier a fs (ctr + 1) fun f hf => h f (List.mem_cons_of_mem _ hf)
    obtain ⟨v, j, hv, hj⟩ := h f (List.mem_cons_self ..)
    have hj' := (toInt_ok parse v j).2 hj
    refine ⟨{ source valid clean f with props := setProp f.props identifier (.int j) } :: out,
      by simp only [loop, identify, source_props, hv, hj', h1], by simp [h2], ?_⟩
    intro i f' g hf hg
    cases i with
    | zero =>
      simp only [List.getElem?_cons_zero, Option.some.injEq] at hf hg
      subst hf; subst hg
      refine ⟨v, j, hv, hj, ?_⟩
      have := identified valid clean identifier f j
      rwa [source_props] at this
    | succ i =>
      simp only [List.getElem?_cons_succ] at hf hg
      exact h3 i f' g hf hg

/-- The loop stops at the first property that is no integer. -/
theorem loop_stop {γ : Type} (parse : String → Option Int) (valid : γ → Bool) (clean : γ → γ) (identifier a : String) :
    ∀ (before : List (Feature γ)) (bad : Feature γ) (after : List (Feature γ)) (ctr : Nat),
      (∀ f ∈ before, ∃ v i, getProp f.props a = some v ∧ IntegerOf parse v i) →
      (∀ v, getProp bad.props a = some v → ∀ i, ¬ IntegerOf parse v i) →
      ∃ out e, loop parse valid clean identifier (some a) ctr (before ++ bad :: after) = (out, .error e) ∧ out.length = before.length ∧
      ∀ (i : Nat) f g, before[i]? = some f → out[i]? = some g →
        ∃ v j, getProp f.props a = some v ∧ IntegerOf parse v j ∧ IdentifiedAs valid clean identifier f g j
  | [], bad, after, ctr, _, hb => by
    cases hg : getProp bad.props a with
    | none => exact ⟨[], .keyError, by simp only [List.nil_append, loop, identify, source_props, hg], rfl, by simp⟩
    | some v =>
      cases ht : toInt parse v with
      | error e => exact ⟨[], e, by simp only [List.nil_append, loop, identify, source_props, hg, ht], rfl, by simp⟩
      | ok i => exact absurd ((toInt_ok parse v i).1 ht) (hb v hg i)
  | f :: before, bad, after, ctr, h, hb => by
    obtain ⟨out, e, h1, h2, h3⟩ := loop_stop parse valid clean identifier a before bad after (ctr + 1)
      (fun f hf => h f (List.mem_cons_of_mem _ hf)) hb
    obtain ⟨v, j, hv, hj⟩ := h f (List.mem_cons_self ..)
    have hj' := (toInt_ok parse v j).2 hj
    refine ⟨{ source valid clean f with props := setProp f.props identifier (.int j) } :: out, e,
      by simp only [List.cons_append, loop, identify, source_props, hv, hj', h1], by simp [h2], ?_⟩
    intro i f' g hf hg
    cases i with
    | zero =>
      simp only [List.getElem?_cons_zero, Option.some.injEq] at hf hg
      subst hf; subst hg
      refine ⟨v, j, hv, hj, ?_⟩
      have := identified valid clean identifier f j
      rwa [source_props] at this
    | succ i =>
      simp only [List.getElem?_cons_succ] at hf hg
      exact h3 i f' g hf hg

/-- Processing to another file. -/
theorem process_eq {γ : Type} (parse : String → Option Int) (valid : γ → Bool) (clean : γ → γ) (d : Disk γ) (path : Path) (folder : String)
    (key ugid name : Option String) (s : Shp γ) (hs : d path = some s) (hne : target path folder key ≠ path)
    (out : List (Feature γ)) (r : Res Unit) (hl : loop parse valid clean (identifierOf name) ugid 1 s.features = (out, r)) :
    ∃ d', process parse valid clean d path folder key ugid name = (d', r.map fun _ => target path folder key) ∧
      d' (target path folder key) = some { schema := newSchema s.schema (identifierOf name), features := out } ∧
      ∀ p, p ≠ target path folder key → d' p = d p := by
  have h1 : put d (target path folder key) { schema := newSchema s.schema (identifierOf name), features := [] } path = some s := by
    simp only [put, if_neg (Ne.symm hne), hs]
  simp only [process, hs, h1, hl]
  cases r with
  | error e => exact ⟨_, rfl, by simp [put], fun p hp => by simp [put, hp]⟩
  | ok u => exact ⟨_, rfl, by simp [put], fun p hp => by simp [put, hp]⟩

end Ocgis.Proofs.ShpProcess
