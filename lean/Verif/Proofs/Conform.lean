import Verif.Spec.Conform
namespace Ocgis.Proofs.Conform
open Ocgis.Conform Ocgis.Spec

theorem convert_quantity {u w : U} (hw : w.scale ≠ 0) (n : Rat) : w.scale * u.convert w n + w.offset = u.scale * n + u.offset := by
  unfold U.convert
  rw [Rat.mul_comm, Rat.div_mul_cancel hw]
  grind

theorem convertAll_ok {κ : Type} {parse : String → Option U} {s t : String} {u w : U} (hu : parse s = some u) (hw : parse t = some w)
    (hk : u.kind = w.kind) (f : κ → Rat) : convertAll parse f s t = .ok fun k => u.convert w (f k) := by
  simp only [convertAll, hu, hw, hk, if_true]

theorem convertAll_error {κ : Type} {parse : String → Option U} {s t : String} (h : ¬SameKindOfUnit parse s t) (f : κ → Rat) :
    convertAll parse f s t = .error .valueError := by
  unfold convertAll
  cases hu : parse s with
  | none => rfl
  | some u =>
    cases hw : parse t with
    | none => rfl
    | some w =>
      by_cases hk : u.kind = w.kind
      · exact absurd ⟨u, w, hu, hw, hk⟩ h
      · simp only [if_neg hk]

theorem hidden_iff {κ : Type} (e : Elem κ) (k : κ) : hidden e k = true ↔ HiddenAt e k := by
  unfold hidden HiddenAt
  cases e.mask <;> simp

/-- What `toConform` gives stands for what the variable shows. -/
theorem toConform_ok {κ : Type} {parse : String → Option U} (hs : SoundUnits parse) {e : Elem κ} {s : String} {u : U} (hd : e.data ≠ none)
    (hu : e.units = some s) (hp : parse s = some u) (hc : CacheRight parse e) :
    ∃ f, toConform parse e = .ok f ∧ ∀ k q, QuantityIs parse e k q → q = u.scale * f k + u.offset := by
  unfold toConform
  cases hdd : e.data with
  | none => exact absurd hdd hd
  | some d =>
    cases d with
    | num f =>
      refine ⟨f, rfl, fun k q h => ?_⟩
      rcases h with ⟨f', c, h, -⟩ | ⟨f', s', h, h2, u', h3, h4⟩
      · rw [hdd] at h; cases h
      · rw [hdd] at h; cases h
        rw [hu] at h2; cases h2
        rw [hp] at h3; cases h3
        exact h4
    | dates f c =>
      have hq : ∀ k q, QuantityIs parse e k q → q = f k := by
        intro k q h
        rcases h with ⟨f', c, h, h2⟩ | ⟨f', s', h, -⟩
        · rw [hdd] at h; cases h; exact h2
        · rw [hdd] at h; cases h
      cases c with
      | some c =>
        refine ⟨c, rfl, fun k q h => ?_⟩
        obtain ⟨s', h1, h2⟩ := hc f c hdd
        rw [hu] at h1; cases h1
        obtain ⟨u', h3, h4⟩ := h2 k
        rw [hp] at h3; cases h3
        rw [hq k q h, h4]
      | none =>
        simp only [hu, Option.bind_some, hp]
        refine ⟨_, rfl, fun k q h => ?_⟩
        rw [hq k q h, Rat.mul_comm, Rat.div_mul_cancel (hs s u hp)]
        grind

theorem setValue_shows {κ : Type} {parse : String → Option U} {e : Elem κ} {t : String} {w : U} (hi : e.integer ≠ some true)
    (hu : e.units = some t) (hp : parse t = some w) (g : κ → Rat) (k : κ) (q : Rat) (h : q = w.scale * g k + w.offset) :
    QuantityIs parse (setValue e g) k q := by
  refine .inr ⟨_, t, rfl, hu, w, hp, ?_⟩
  simp only [if_neg hi]
  exact h

theorem setValue_hidden {κ : Type} (e : Elem κ) (g : κ → Rat) (k : κ) : HiddenAt (setValue e g) k ↔ HiddenAt e k := by
  rw [← hidden_iff e]
  simp [HiddenAt, setValue]

/-- Converted bounds. -/
theorem conformBounds_ok {parse : String → Option U} (hs : SoundUnits parse) {b : Elem (Nat × Nat)} {s t : String} {u w : U}
    (hu : parse s = some u) (hw : parse t = some w) (hk : u.kind = w.kind) (hb : BoundsReady parse s b) :
    ∃ b', conformBounds parse b t s = (b', .ok ()) ∧ b'.units = some t ∧ b'.integer = none ∧ (∃ g, b'.data = some (.num g)) ∧
      (∀ k q, BoundsShow parse s b k q → QuantityIs parse b' k q) ∧ ∀ k, HiddenAt b' k ↔ HiddenAt b k := by
  obtain ⟨hi, ht, hd⟩ := hb
  have fin : ∀ (b1 : Elem (Nat × Nat)) (f : Nat × Nat → Rat), b1.integer = b.integer → b1.mask = b.mask → loadElem parse b = (b1, .ok ()) →
      toConform parse b1 = .ok f → (∀ k q, BoundsShow parse s b k q → q = u.scale * f k + u.offset) →
      ∃ b', conformBounds parse b t s = (b', .ok ()) ∧ b'.units = some t ∧ b'.integer = none ∧ (∃ g, b'.data = some (.num g)) ∧
        (∀ k q, BoundsShow parse s b k q → QuantityIs parse b' k q) ∧ ∀ k, HiddenAt b' k ↔ HiddenAt b k := by
    intro b1 f h1 h2 h3 h4 h5
    refine ⟨setValue { b1 with units := some t } fun k => u.convert w (f k), ?_, rfl, rfl, ⟨_, rfl⟩, fun k q hq => ?_, fun k => ?_⟩
    · simp only [conformBounds, h3, convertElem, h4, convertAll_ok hu hw hk]
    · refine setValue_shows (t := t) (w := w) (by show b1.integer ≠ some true; rw [h1]; exact hi) rfl hw _ k q ?_
      rw [convert_quantity (hs t w hw), h5 k q hq]
    · rw [setValue_hidden]
      simp [HiddenAt, h2]
  cases hdd : b.data with
  | none =>
    refine fin { b with data := some (.num b.file) } b.file rfl rfl (by simp only [loadElem, hdd, ht hdd]) rfl ?_
    intro k q hq
    rcases hq with ⟨f, c, h, -⟩ | ⟨f, h, -⟩ | ⟨-, u', h, h2⟩
    · rw [hdd] at h; cases h
    · rw [hdd] at h; cases h
    · rw [hu] at h; cases h; exact h2
  | some d =>
    cases d with
    | num f =>
      refine fin b f rfl rfl (by simp only [loadElem, hdd]) (by simp only [toConform, hdd]) ?_
      intro k q hq
      rcases hq with ⟨f', c, h, -⟩ | ⟨f', h, u', h2, h3⟩ | ⟨h, -⟩
      · rw [hdd] at h; cases h
      · rw [hdd] at h; cases h
        rw [hu] at h2; cases h2; exact h3
      · rw [hdd] at h; cases h
    | dates f c =>
      obtain ⟨n, rfl, hn⟩ := hd f c hdd
      refine fin b n rfl rfl (by simp only [loadElem, hdd]) (by simp only [toConform, hdd]) ?_
      intro k q hq
      rcases hq with ⟨f', c, h, rfl⟩ | ⟨f', h, -⟩ | ⟨h, -⟩
      · rw [hdd] at h; cases h
        obtain ⟨u', h2, h3⟩ := hn k
        rw [hu] at h2; cases h2; exact h3
      · rw [hdd] at h; cases h
      · rw [hdd] at h; cases h

/-- What a conversion of a variable that was read makes. -/
structure Made (parse : String → Option U) (s t : String) (v v' : UVar) (f : Nat → Rat) : Prop where
  units : v'.x.units = some t
  integer : v'.x.integer = none
  num : ∃ g, v'.x.data = some (.num g)
  shows_ : ∀ k q, NumberIs parse s (f k) q → QuantityIs parse v'.x k q
  hidden : ∀ k, HiddenAt v'.x k ↔ HiddenAt v.x k
  without : v.bounds = .none → v'.bounds = .none
  bounds : ∀ b, v.bounds = some b → ∃ b', v'.bounds = some b' ∧ b'.units = some t ∧ b'.integer = none ∧ (∃ g, b'.data = some (.num g)) ∧
    (∀ k q, BoundsShow parse s b k q → QuantityIs parse b' k q) ∧ ∀ k, HiddenAt b' k ↔ HiddenAt b k ∨ HiddenAt v.x k.1

theorem conformLoaded_ok {parse : String → Option U} (hs : SoundUnits parse) {v : UVar} {s t : String} (hk : SameKindOfUnit parse s t)
    {f : Nat → Rat} (hf : toConform parse v.x = .ok f) (hi : v.x.integer ≠ some true)
    (hb : ∀ b, v.bounds = some b → BoundsReady parse s b) :
    ∃ v', conformLoaded parse v t s = (v', .ok ()) ∧ Made parse s t v v' f := by
  obtain ⟨u, w, hu, hw, hk⟩ := hk
  have hsh : ∀ k q, NumberIs parse s (f k) q → QuantityIs parse (setValue { v.x with units := some t } fun k => u.convert w (f k)) k q := by
    rintro k q ⟨u', h1, h2⟩
    rw [hu] at h1; cases h1
    exact setValue_shows (e := { v.x with units := some t }) (t := t) (w := w) hi rfl hw _ k q (by rw [convert_quantity (hs t w hw), h2])
  have hhid : ∀ k, HiddenAt (setValue { v.x with units := some t } fun k => u.convert w (f k)) k ↔ HiddenAt v.x k := fun k => setValue_hidden _ _ k
  unfold conformLoaded
  simp only [hf, convertAll_ok hu hw hk]
  cases hbd : v.bounds with
  | none =>
    refine ⟨_, rfl, ⟨rfl, rfl, ⟨_, rfl⟩, hsh, hhid, fun _ => rfl, fun b h => (by rw [hbd] at h; cases h)⟩⟩
  | some b =>
    obtain ⟨b', e1, e2, e3, e4, e5, e6⟩ := conformBounds_ok hs hu hw hk
      (b := hideBounds (setValue { v.x with units := some t } fun k => u.convert w (f k)) { b with units := some t }) (hb b hbd)
    simp only [Option.map_some, e1]
    refine ⟨_, rfl, ⟨rfl, rfl, ⟨_, rfl⟩, hsh, hhid, fun h => (by rw [hbd] at h; cases h), fun c hc => ?_⟩⟩
    rw [hbd] at hc; cases hc
    refine ⟨b', rfl, e2, e3, e4, fun k q h => e5 k q h, fun k => ?_⟩
    rw [e6 k, ← hhid k.1, ← hidden_iff b, ← hidden_iff (setValue _ _)]
    simp only [HiddenAt, hideBounds]
    constructor
    · rintro ⟨m, h, h2⟩
      cases h
      simpa [Conform.hidden] using h2
    · intro h
      exact ⟨_, rfl, by simpa [Conform.hidden] using h⟩

theorem toInt_near (n : Rat) : ∃ m : Int, toInt n = m ∧ (0 ≤ n → m ≤ n ∧ n < m + 1) ∧ (n ≤ 0 → n ≤ m ∧ m < n + 1) := by
  unfold toInt
  by_cases h : 0 ≤ n
  · rw [if_pos h]
    refine ⟨n.floor, rfl, fun _ => ⟨Rat.floor_le .., (by have := Rat.lt_floor (x := n); grind)⟩, fun h' => ?_⟩
    have : n = 0 := Rat.le_antisymm h' h
    subst this
    decide +kernel
  · rw [if_neg h]
    exact ⟨n.ceil, rfl, fun h' => absurd h' h, fun _ => ⟨Rat.le_ceil .., Rat.ceil_lt ..⟩⟩

theorem toInt_self (n : Rat) : toInt n = n ↔ ∃ i : Int, n = i := by
  constructor
  · intro h
    obtain ⟨m, hm, -⟩ := toInt_near n
    exact ⟨m, by rw [← h, hm]⟩
  · rintro ⟨i, rfl⟩
    unfold toInt
    simp [Rat.floor_intCast, Rat.ceil_intCast]

end Ocgis.Proofs.Conform
