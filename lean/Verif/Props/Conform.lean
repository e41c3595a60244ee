import Verif.Proofs.Conform
/-!
# C112: Conforming units changes the numbers, not the quantities
-/
namespace Ocgis.Props
open Ocgis.Conform Ocgis.Spec Ocgis.Proofs.Conform

/-- Kelvin, degrees Celsius and Fahrenheit, and metres. -/
def demoUnits : String → Option U
  | "K" => some ⟨0, 1, 0⟩
  | "celsius" => some ⟨0, 1, 5463 / 20⟩
  | "fahrenheit" => some ⟨0, 5 / 9, 45967 / 180⟩
  | "m" => some ⟨1, 1, 0⟩
  | _ => none

theorem demoUnits_sound : SoundUnits demoUnits := by
  intro s u h
  unfold demoUnits at h
  split at h <;> (try cases h) <;> decide +kernel

/-- C112 (values were read and are not of an integer data type; bounds are in the units of the variable, were not to be converted on their
own, and numbers were kept if they are dates): conforming to units of the same kind gives the variable and its bounds these units and leaves
what they stand for, and what is hidden. -/
theorem C112_conform_partial (parse : String → Option U) (hs : SoundUnits parse) (v : UVar) (s t : String) (hd : v.x.data ≠ none)
    (hu : v.x.units = some s) (hk : SameKindOfUnit parse s t) (hi : v.x.integer ≠ some true) (hc : CacheRight parse v.x)
    (hb : ∀ b, v.bounds = some b → BoundsReady parse s b) :
    ∃ v', conform parse v t = (v', .ok ()) ∧ v'.x.units = some t ∧ (∀ k q, QuantityIs parse v.x k q → QuantityIs parse v'.x k q) ∧
      (∀ k, HiddenAt v'.x k ↔ HiddenAt v.x k) ∧ (v.bounds = none → v'.bounds = none) ∧
      ∀ b, v.bounds = some b → ∃ b', v'.bounds = some b' ∧ b'.units = some t ∧ (∀ k q, BoundsShow parse s b k q → QuantityIs parse b' k q) ∧
        ∀ k, HiddenAt b' k ↔ HiddenAt b k ∨ HiddenAt v.x k.1 := by
  obtain ⟨u, w, hpu, hpw, hkk⟩ := hk
  obtain ⟨f, hf, hq⟩ := toConform_ok hs hd hu hpu hc
  obtain ⟨v', h1, h2⟩ := conformLoaded_ok hs ⟨u, w, hpu, hpw, hkk⟩ hf hi hb
  have hl : load parse v = (v, .ok ()) := by
    unfold load
    cases h : v.x.data with
    | none => exact absurd h hd
    | some d => rfl
  refine ⟨v', by simp only [conform, hu, hpu, Option.isSome_some, if_true, hl, h1], h2.units, fun k q h => h2.shows_ k q ⟨u, hpu, hq k q h⟩, h2.hidden,
    h2.without, fun b h => ?_⟩
  obtain ⟨b', e1, e2, -, -, e5, e6⟩ := h2.bounds b h
  exact ⟨b', e1, e2, e5, e6⟩

/-- Two temperatures with bounds that are still in the file. -/
def demoTemps : UVar :=
  { x := { data := some (.num fun i => 5 * i), units := some "celsius", mask := some fun i => i == 1 }
    bounds := some { data := none, units := some "celsius", file := fun k => 5 * k.1 + 2 * k.2 - 1 } }

example : ∀ b, demoTemps.bounds = some b → BoundsReady demoUnits "celsius" b := by
  intro b h
  cases h
  exact ⟨by simp, fun _ => rfl, fun f c h => by cases h⟩

example : SameKindOfUnit demoUnits "celsius" "fahrenheit" ∧ (match (conform demoUnits demoTemps "fahrenheit").1.x.data with
    | some (.num f) => (f 0, f 1)
    | _ => (0, 0)) = (32, 41) := ⟨⟨_, _, rfl, rfl, rfl⟩, by decide +kernel⟩

example : (match (conform demoUnits demoTemps "K").1.bounds with
    | some { data := some (.num f), .. } => (f (0, 0), f (0, 1))
    | _ => (0, 0)) = (5443 / 20, 5483 / 20) := by decide +kernel

/-- C112: units can be given for a variable that was read; its numbers are then taken to be in those. -/
theorem C112_given_units (parse : String → Option U) (hs : SoundUnits parse) (v : UVar) (s t : String) (f : Nat → Rat)
    (hd : v.x.data = some (.num f)) (hk : SameKindOfUnit parse s t) (hi : v.x.integer ≠ some true)
    (hb : ∀ b, v.bounds = some b → BoundsReady parse s b) :
    ∃ v', conform parse v t (some s) = (v', .ok ()) ∧ v'.x.units = some t ∧ (∀ k q, NumberIs parse s (f k) q → QuantityIs parse v'.x k q) ∧
      ∀ b, v.bounds = some b → ∃ b', v'.bounds = some b' ∧ b'.units = some t ∧ ∀ k q, BoundsShow parse s b k q → QuantityIs parse b' k q := by
  obtain ⟨v', h1, h2⟩ := conformLoaded_ok hs hk (f := f) (by simp only [toConform, hd]) hi hb
  have hl : load parse v = (v, .ok ()) := by simp only [load, hd]
  refine ⟨v', by simp only [conform, hl, h1], h2.units, h2.shows_, fun b h => ?_⟩
  obtain ⟨b', e1, e2, -, -, e5, -⟩ := h2.bounds b h
  exact ⟨b', e1, e2, e5⟩

/-- C112: conforming to other units and back gives the numbers there were. -/
theorem C112_round_trip (parse : String → Option U) (hs : SoundUnits parse) (v : UVar) (s t : String) (f : Nat → Rat)
    (hd : v.x.data = some (.num f)) (hu : v.x.units = some s) (hk : SameKindOfUnit parse s t) (hi : v.x.integer ≠ some true)
    (hb : ∀ b, v.bounds = some b → BoundsReady parse s b) :
    ∃ v' v'' f', conform parse v t = (v', .ok ()) ∧ conform parse v' s = (v'', .ok ()) ∧ v''.x.units = some s ∧
      v''.x.data = some (.num f') ∧ ∀ k, f' k = f k := by
  obtain ⟨u, w, hpu, hpw, hkk⟩ := hk
  obtain ⟨v', h1, h2⟩ := conformLoaded_ok hs ⟨u, w, hpu, hpw, hkk⟩ (f := f) (by simp only [toConform, hd]) hi hb
  obtain ⟨g, hg⟩ := h2.num
  have hb' : ∀ b, v'.bounds = some b → BoundsReady parse t b := by
    intro b' hb'
    cases hbd : v.bounds with
    | none => rw [h2.without hbd] at hb'; cases hb'
    | some b =>
      obtain ⟨b'', e1, e2, e3, ⟨g', e4⟩, -⟩ := h2.bounds b hbd
      rw [e1] at hb'
      cases hb'
      exact ⟨by rw [e3]; simp, fun h => (by rw [e4] at h; cases h), fun f c h => (by rw [e4] at h; cases h)⟩
  obtain ⟨v'', k1, k2⟩ := conformLoaded_ok hs (v := v') ⟨w, u, hpw, hpu, hkk.symm⟩ (f := g) (by simp only [toConform, hg])
    (by rw [h2.integer]; simp) hb'
  obtain ⟨f', hf'⟩ := k2.num
  have hl : load parse v = (v, .ok ()) := by simp only [load, hd]
  have hl' : load parse v' = (v', .ok ()) := by simp only [load, hg]
  refine ⟨v', v'', f', by simp only [conform, hu, hpu, Option.isSome_some, if_true, hl, h1],
    by simp only [conform, h2.units, hpw, Option.isSome_some, if_true, hl', k1], k2.units, hf', fun k => ?_⟩
  have sh1 := h2.shows_ k (u.scale * f k + u.offset) ⟨u, hpu, rfl⟩
  rcases sh1 with ⟨a, c, h, -⟩ | ⟨a, s', h, h', hn⟩
  · rw [hg] at h; cases h
  rw [hg] at h; cases h
  rw [h2.units] at h'; cases h'
  have sh2 := k2.shows_ k _ hn
  rcases sh2 with ⟨a, c, h, -⟩ | ⟨a, s', h, h', u', hp, hn2⟩
  · rw [hf'] at h; cases h
  rw [hf'] at h; cases h
  rw [k2.units] at h'; cases h'
  rw [hpu] at hp; cases hp
  have h3 : u.scale * f k = u.scale * f' k := by grind
  have hsc := hs s u hpu
  have h4 : u.scale * (f k - f' k) = 0 := by grind
  rcases Rat.mul_eq_zero.1 h4 with h5 | h5
  · exact absurd h5 hsc
  · grind

/-- C112: a variable without units is refused, and nothing is changed. -/
theorem C112_no_units (parse : String → Option U) (v : UVar) (t : String) (hu : v.x.units = none) :
    conform parse v t = (v, .error .runtimeError) := by
  simp only [conform, hu]

/-- C112: units of another kind, or that are not known, are refused, and numbers and mask are not changed. -/
theorem C112_refused (parse : String → Option U) (v : UVar) (s t : String) (f : Nat → Rat) (hd : v.x.data = some (.num f))
    (hu : v.x.units = some s) (hk : ¬SameKindOfUnit parse s t) :
    ∃ v', conform parse v t = (v', .error .valueError) ∧ v'.x.data = v.x.data ∧ v'.x.mask = v.x.mask ∧
      v'.bounds.map (·.data) = v.bounds.map (·.data) := by
  have hl : load parse v = (v, .ok ()) := by simp only [load, hd]
  unfold conform
  simp only [hu]
  cases hp : parse s with
  | none => exact ⟨v, rfl, rfl, rfl, rfl⟩
  | some u =>
    simp only [Option.isSome_some, if_true, hl, conformLoaded, toConform, hd, convertAll_error hk]
    refine ⟨_, rfl, rfl, rfl, ?_⟩
    cases v.bounds <;> rfl

/-- C112 is false for units that are refused: the variable and its bounds always have them afterwards, with the old numbers. -/
theorem C112_refused_never (parse : String → Option U) (v : UVar) (s t : String) (f : Nat → Rat) (hd : v.x.data = some (.num f))
    (hu : v.x.units = some s) (hp : parse s ≠ none) (hk : ¬SameKindOfUnit parse s t) :
    (conform parse v t).2 = .error .valueError ∧ (conform parse v t).1.x.units = some t ∧ (conform parse v t).1.x.data = some (.num f) ∧
      ∀ b, (conform parse v t).1.bounds = some b → b.units = some t := by
  have hl : load parse v = (v, .ok ()) := by simp only [load, hd]
  obtain ⟨u, hp⟩ := Option.ne_none_iff_exists'.1 hp
  have h : conform parse v t =
      ({ v with x := { v.x with units := some t }, bounds := v.bounds.map fun b => { b with units := some t } }, .error .valueError) := by
    simp only [conform, hu, hp, Option.isSome_some, if_true, hl, conformLoaded, toConform, hd, convertAll_error hk]
  rw [h]
  refine ⟨rfl, rfl, by first | exact hd | rfl, fun b hb => ?_⟩
  simp only at hb
  cases hbd : v.bounds with
  | none => rw [hbd] at hb; cases hb
  | some c => rw [hbd] at hb; cases hb; rfl

example : ¬SameKindOfUnit demoUnits "celsius" "m" ∧ (conform demoUnits demoTemps "m").1.x.units = some "m" :=
  ⟨fun ⟨u, w, h1, h2, h3⟩ => (by cases h1; cases h2; cases h3), rfl⟩

/-- C112 is false for a variable with an integer data type: what it stands for stays if and only if the number in the new units is an
integer, as all that follows the point is dropped: the new number is the integer next to it on the side of zero. -/
theorem C112_integer_never (parse : String → Option U) (hs : SoundUnits parse) (v : UVar) (s t : String) (f : Nat → Rat)
    (hd : v.x.data = some (.num f)) (hu : v.x.units = some s) (hk : SameKindOfUnit parse s t) (hi : v.x.integer = some true)
    (hb : v.bounds = none) (k : Nat) (q n : Rat) (hq : QuantityIs parse v.x k q) (hn : NumberIs parse t n q) :
    (conform parse v t).2 = .ok () ∧ (QuantityIs parse (conform parse v t).1.x k q ↔ ∃ i : Int, n = i) ∧
      ∃ g, (conform parse v t).1.x.data = some (.num g) ∧ ∃ m : Int, g k = m ∧ (0 ≤ n → m ≤ n ∧ n < m + 1) ∧ (n ≤ 0 → n ≤ m ∧ m < n + 1) := by
  obtain ⟨u, w, hpu, hpw, hkk⟩ := hk
  have hl : load parse v = (v, .ok ()) := by simp only [load, hd]
  have h : conform parse v t = ({ v with x := setValue { v.x with units := some t } fun k => u.convert w (f k), bounds := none }, .ok ()) := by
    simp only [conform, hu, hpu, Option.isSome_some, if_true, hl, conformLoaded, toConform, hd, convertAll_ok hpu hpw hkk, hb, Option.map_none]
  rw [h]
  refine ⟨rfl, ?_⟩
  have hw := hs t w hpw
  rcases hq with ⟨f', c, h, -⟩ | ⟨f', s', h, h', u', hp, hq⟩
  · rw [hd] at h; cases h
  rw [hd] at h; cases h
  rw [hu] at h'; cases h'
  rw [hpu] at hp; cases hp
  obtain ⟨w', hp, hn⟩ := hn
  rw [hpw] at hp; cases hp
  have inj : ∀ a b : Rat, w.scale * a + w.offset = w.scale * b + w.offset → a = b := by
    intro a b hab
    have h4 : w.scale * (a - b) = 0 := by grind
    rcases Rat.mul_eq_zero.1 h4 with h5 | h5
    · exact absurd h5 hw
    · grind
  have hnc : n = u.convert w (f k) := inj _ _ (by rw [convert_quantity hw, ← hn, ← hq])
  refine ⟨?_, _, rfl, ?_⟩
  · rw [← toInt_self]
    constructor
    · rintro (⟨f', c, h, -⟩ | ⟨f', s', h, h', w', hp, hq'⟩)
      · cases h
      cases h
      cases h'
      rw [hpw] at hp; cases hp
      simp only [hi, if_true] at hq'
      rw [← hnc] at hq'
      exact inj _ _ (by rw [← hq', ← hn])
    · intro hint
      refine .inr ⟨_, t, rfl, rfl, w, hpw, ?_⟩
      simp only [hi, if_true]
      rw [← hnc, hint, hn]
  · simp only [hi, if_true]
    rw [← hnc]
    exact toInt_near n

example : (match (conform demoUnits { demoTemps with x := { demoTemps.x with integer := some true } } "K").1.x.data with
    | some (.num f) => f 0
    | _ => 0) = 273 := by decide +kernel

/-! ## Values from files -/

/-- C112: a variable of a netCDF file that is to be conformed has the wanted units before and after it is read, and stands for what is in the
file; its bounds are converted with it. -/
theorem C112_read (parse : String → Option U) (hs : SoundUnits parse) (file : Nat → Rat) (s t : String) (hk : SameKindOfUnit parse s t)
    (bounds : Option ((Nat × Nat → Rat) × Option String × Option String)) (hb : ∀ b, bounds = some b → b.2.2 = none) :
    ∃ v', load parse (openNetcdf file (some s) (some t) bounds) = (v', .ok ()) ∧
      (openNetcdf file (some s) (some t) bounds).x.units = some t ∧ v'.x.units = some t ∧
      (∀ k q, NumberIs parse s (file k) q → QuantityIs parse v'.x k q) ∧
      ∀ b, bounds = some b → ∃ b', v'.bounds = some b' ∧ b'.units = some t ∧ ∀ k q, NumberIs parse s (b.1 k) q → QuantityIs parse b' k q := by
  have hready : ∀ b, (openNetcdf file (some s) (some t) bounds).bounds = some b → BoundsReady parse s b := by
    intro b h
    cases hbb : bounds with
    | none => rw [hbb] at h; cases h
    | some c =>
      rw [hbb] at h
      cases h
      exact ⟨by simp, fun _ => hb c hbb, fun f c h => by cases h⟩
  obtain ⟨v', h1, h2⟩ := conformLoaded_ok hs (v := { openNetcdf file (some s) (some t) bounds with
    x := { (openNetcdf file (some s) (some t) bounds).x with data := some (.num file) } }) hk (f := file) rfl (by simp [openNetcdf]) hready
  refine ⟨v', h1, rfl, h2.units, h2.shows_, fun b hbb => ?_⟩
  subst hbb
  obtain ⟨b', e1, e2, -, -, e5, -⟩ := h2.bounds _ rfl
  exact ⟨b', e1, e2, fun k q h => e5 k q (.inr (.inr ⟨rfl, h⟩))⟩

/-- C112: conforming a variable of a netCDF file that is to be conformed on reading, whether it was read or not, leaves what is in the file. -/
theorem C112_read_conform (parse : String → Option U) (hs : SoundUnits parse) (file : Nat → Rat) (s t w : String) (hk : SameKindOfUnit parse s t)
    (hk2 : SameKindOfUnit parse t w) (bounds : Option ((Nat × Nat → Rat) × Option String × Option String)) (hb : ∀ b, bounds = some b → b.2.2 = none) :
    ∃ v', conform parse (openNetcdf file (some s) (some t) bounds) w = (v', .ok ()) ∧ v'.x.units = some w ∧
      conform parse (load parse (openNetcdf file (some s) (some t) bounds)).1 w = (v', .ok ()) ∧
      (∀ k q, NumberIs parse s (file k) q → QuantityIs parse v'.x k q) ∧
      ∀ b, bounds = some b → ∃ b', v'.bounds = some b' ∧ b'.units = some w ∧ ∀ k q, NumberIs parse s (b.1 k) q → QuantityIs parse b' k q := by
  have hready : ∀ b, (openNetcdf file (some s) (some t) bounds).bounds = some b → BoundsReady parse s b := by
    intro b h
    cases hbb : bounds with
    | none => rw [hbb] at h; cases h
    | some c =>
      rw [hbb] at h
      cases h
      exact ⟨by simp, fun _ => hb c hbb, fun f c h => by cases h⟩
  obtain ⟨v1, h1, h2⟩ := conformLoaded_ok hs (v := { openNetcdf file (some s) (some t) bounds with
    x := { (openNetcdf file (some s) (some t) bounds).x with data := some (.num file) } }) hk (f := file) rfl (by simp [openNetcdf]) hready
  have hload : load parse (openNetcdf file (some s) (some t) bounds) = (v1, .ok ()) := h1
  obtain ⟨g, hg⟩ := h2.num
  have hb' : ∀ b, v1.bounds = some b → BoundsReady parse t b := by
    intro b' hb'
    cases hbd : bounds with
    | none =>
      subst hbd
      rw [h2.without rfl] at hb'; cases hb'
    | some b =>
      subst hbd
      obtain ⟨b'', e1, e2, e3, ⟨g', e4⟩, -⟩ := h2.bounds _ rfl
      rw [e1] at hb'
      cases hb'
      exact ⟨by rw [e3]; simp, fun h => (by rw [e4] at h; cases h), fun f c h => (by rw [e4] at h; cases h)⟩
  obtain ⟨v', k1, k2⟩ := conformLoaded_ok hs (v := v1) hk2 (f := g) (by simp only [toConform, hg]) (by rw [h2.integer]; simp) hb'
  obtain ⟨-, ut, -, hput, -⟩ := hk
  have hl1 : load parse v1 = (v1, .ok ()) := by simp only [load, hg]
  have hun : (openNetcdf file (some s) (some t) bounds).x.units = some t := rfl
  have hnum : ∀ k q, QuantityIs parse v1.x k q → NumberIs parse t (g k) q := by
    rintro k q (⟨f', c, h, -⟩ | ⟨f', s', h, h', hn⟩)
    · rw [hg] at h; cases h
    · rw [hg] at h; cases h
      rw [h2.units] at h'; cases h'
      exact hn
  refine ⟨v', by simp only [conform, hun, hput, Option.isSome_some, if_true, hload, k1], k2.units,
    by simp only [conform, hload, h2.units, hput, Option.isSome_some, if_true, hl1, k1], fun k q h => k2.shows_ k q (hnum k q (h2.shows_ k q h)), fun b hbb => ?_⟩
  subst hbb
  obtain ⟨b', e1, e2, -, ⟨g', e4⟩, e5, -⟩ := h2.bounds _ rfl
  obtain ⟨b'', i1, i2, -, -, i5, -⟩ := k2.bounds b' e1
  refine ⟨b'', i1, i2, fun k q h => i5 k q ?_⟩
  rcases e5 k q (.inr (.inr ⟨rfl, h⟩)) with ⟨f', c, h, -⟩ | ⟨f', s', h, h', hn⟩
  · rw [e4] at h; cases h
  · rw [e2] at h'; cases h'
    exact .inr (.inl ⟨f', h, hn⟩)

example : (match (conform demoUnits (openNetcdf (fun i => i) (some "celsius") (some "K") none) "fahrenheit").1.x.data with
    | some (.num f) => f 0
    | _ => 0) = 32 := by decide +kernel

/-- C112 is false for bounds of a netCDF file that are read before their variable: they have the units that are wanted, and the numbers of the
file, which are in the other units. -/
theorem C112_bounds_first_never (parse : String → Option U) (file : Nat → Rat) (s : Option String) (t : String) (fb : Nat × Nat → Rat) (bu : Option String) :
    ∃ v' b, readBounds parse (openNetcdf file s (some t) (some (fb, bu, none))) = (v', .ok ()) ∧ v'.bounds = some b ∧ b.units = some t ∧
      b.data = some (.num fb) := ⟨_, _, rfl, rfl, rfl, rfl⟩

/-- C112: this ends when the variable is read. -/
theorem C112_bounds_first_then (parse : String → Option U) (hs : SoundUnits parse) (file : Nat → Rat) (s t : String) (hk : SameKindOfUnit parse s t)
    (fb : Nat × Nat → Rat) (bu : Option String) :
    ∃ v' b, load parse (readBounds parse (openNetcdf file (some s) (some t) (some (fb, bu, none)))).1 = (v', .ok ()) ∧ v'.bounds = some b ∧
      b.units = some t ∧ ∀ k q, NumberIs parse s (fb k) q → QuantityIs parse b k q := by
  obtain ⟨v', h1, h2⟩ := conformLoaded_ok hs (v := { (readBounds parse (openNetcdf file (some s) (some t) (some (fb, bu, none)))).1 with
    x := { (openNetcdf file (some s) (some t) (some (fb, bu, none))).x with data := some (.num file) } }) hk (f := file) rfl (by simp [openNetcdf])
    (by
      intro b h
      cases h
      show BoundsReady parse s { data := some (.num fb), units := some t, file := fb, fileUnits := bu }
      exact ⟨by simp, fun h => (by cases h), fun f c h => (by cases h)⟩)
  obtain ⟨b', e1, e2, -, -, e5, -⟩ := h2.bounds _ rfl
  exact ⟨v', b', h1, e1, e2, fun k q h => e5 k q (.inr (.inl ⟨fb, rfl, h⟩))⟩

/-- C112 is false for bounds of a netCDF file that are to be conformed like their variable: they are converted twice, so that numbers in the
new units are taken for numbers in the old ones. -/
theorem C112_bounds_twice_never (parse : String → Option U) (hs : SoundUnits parse) (file : Nat → Rat) (s t : String) (hk : SameKindOfUnit parse s t)
    (fb : Nat × Nat → Rat) (k : Nat × Nat) (q : Rat) (hq : NumberIs parse s (fb k) q) :
    ∃ v' b n q', load parse (openNetcdf file (some s) (some t) (some (fb, some s, some t))) = (v', .ok ()) ∧ v'.bounds = some b ∧
      NumberIs parse t n q ∧ NumberIs parse s n q' ∧ QuantityIs parse b k q' := by
  obtain ⟨u, w, hpu, hpw, hkk⟩ := hk
  obtain ⟨u', h, hq⟩ := hq
  rw [hpu] at h; cases h
  have key : ∃ v' b, load parse (openNetcdf file (some s) (some t) (some (fb, some s, some t))) = (v', .ok ()) ∧ v'.bounds = some b ∧
      b.units = some t ∧ b.data = some (.num fun k => u.convert w (u.convert w (fb k))) := by
    simp only [load, openNetcdf, Bool.false_eq_true, if_false, conformLoaded, toConform, convertAll_ok hpu hpw hkk, Option.map_some, hideBounds, conformBounds,
      loadElem, convertElem, setValue, reduceCtorEq]
    exact ⟨_, _, rfl, rfl, rfl, rfl⟩
  obtain ⟨v', b, h1, h2, h3, h4⟩ := key
  refine ⟨v', b, u.convert w (fb k), u.scale * u.convert w (fb k) + u.offset, h1, h2, ⟨w, hpw, ?_⟩, ⟨u, hpu, rfl⟩, .inr ⟨_, t, h4, h3, w, hpw, ?_⟩⟩
  · rw [convert_quantity (hs t w hpw), hq]
  · rw [convert_quantity (hs t w hpw)]

example : (match (load demoUnits (openNetcdf (fun i => i) (some "celsius") (some "K") (some (fun k => k.2, some "celsius", some "K")))).1.bounds with
    | some { data := some (.num f), .. } => f (0, 0)
    | _ => 0) = 5463 / 10 := by decide +kernel

/-- C112 is false for a variable of a vector file that is to be conformed on reading, and is conformed before it was read: it is converted
twice, and numbers in the units of the first conversion are taken for numbers in the units of the file. -/
theorem C112_vector_never (parse : String → Option U) (hs : SoundUnits parse) (file : Nat → Rat) (s t w : String) (hk : SameKindOfUnit parse s t)
    (hk2 : SameKindOfUnit parse s w) (k : Nat) (q : Rat) (hq : NumberIs parse s (file k) q) :
    ∃ v' n q', conform parse (openVector file (some s) (some t)) w = (v', .ok ()) ∧ v'.x.units = some w ∧
      NumberIs parse t n q ∧ NumberIs parse s n q' ∧ QuantityIs parse v'.x k q' := by
  obtain ⟨u, a, hpu, hpa, hka⟩ := hk
  obtain ⟨u', b, h, hpb, hkb⟩ := hk2
  rw [hpu] at h; cases h
  obtain ⟨u', h, hq⟩ := hq
  rw [hpu] at h; cases h
  have key : ∃ v', conform parse (openVector file (some s) (some t)) w = (v', .ok ()) ∧ v'.x.units = some w ∧
      v'.x.data = some (.num fun k => u.convert b (u.convert a (file k))) := by
    simp only [conform, hpu, Option.isSome_some, if_true, load, openVector, conformLoaded, toConform, convertAll_ok hpu hpa hka,
      convertAll_ok hpu hpb hkb, Option.map_none, setValue, reduceCtorEq, if_false]
    exact ⟨_, rfl, rfl, rfl⟩
  obtain ⟨v', h1, h2, h3⟩ := key
  refine ⟨v', u.convert a (file k), u.scale * u.convert a (file k) + u.offset, h1, h2, ⟨a, hpa, ?_⟩, ⟨u, hpu, rfl⟩, .inr ⟨_, w, h3, h2, b, hpb, ?_⟩⟩
  · rw [convert_quantity (hs t a hpa), hq]
  · rw [convert_quantity (hs w b hpb)]

example : (match (conform demoUnits (openVector (fun i => i) (some "celsius") (some "K")) "K").1.x.data with
    | some (.num f) => f 0
    | _ => 0) = 5463 / 10 := by decide +kernel

/-! ## Dates -/

/-- C112 is false for bounds that are dates of which no numbers were kept: their numbers in the new units are taken for numbers in the old
units, and converted. -/
theorem C112_dates_never (parse : String → Option U) (hs : SoundUnits parse) (v : UVar) (s t : String) (f : Nat → Rat)
    (hd : v.x.data = some (.num f)) (hu : v.x.units = some s) (hk : SameKindOfUnit parse s t) (b : Elem (Nat × Nat)) (hb : v.bounds = some b)
    (g : Nat × Nat → Rat) (hbd : b.data = some (.dates g none)) (hi : b.integer ≠ some true) (k : Nat × Nat) :
    ∃ v' b' n q', conform parse v t = (v', .ok ()) ∧ v'.bounds = some b' ∧ b'.units = some t ∧
      NumberIs parse t n (g k) ∧ NumberIs parse s n q' ∧ QuantityIs parse b' k q' := by
  obtain ⟨u, w, hpu, hpw, hkk⟩ := hk
  have hl : load parse v = (v, .ok ()) := by simp only [load, hd]
  have hw := hs t w hpw
  have key : ∃ v' b', conform parse v t = (v', .ok ()) ∧ v'.bounds = some b' ∧ b'.units = some t ∧
      b'.data = some (.num fun k => u.convert w ((g k - w.offset) / w.scale)) := by
    simp only [conform, hu, hpu, Option.isSome_some, if_true, hl, conformLoaded, toConform, hd, convertAll_ok hpu hpw hkk, hb, Option.map_some, hideBounds,
      conformBounds, loadElem, hbd, convertElem, Option.bind_some, hpw, setValue, if_neg hi]
    exact ⟨_, _, rfl, rfl, rfl, rfl⟩
  obtain ⟨v', b', h1, h2, h3, h4⟩ := key
  refine ⟨v', b', (g k - w.offset) / w.scale, u.scale * ((g k - w.offset) / w.scale) + u.offset, h1, h2, h3, ⟨w, hpw, ?_⟩, ⟨u, hpu, rfl⟩,
    .inr ⟨_, t, h4, h3, w, hpw, ?_⟩⟩
  · rw [Rat.mul_comm, Rat.div_mul_cancel hw]
    grind
  · rw [convert_quantity hw]

/-- A time with bounds that are dates. -/
def demoDateBounds : UVar :=
  { x := { data := some (.num fun _ => 5), units := some "celsius" }
    bounds := some { data := some (.dates (fun _ => 300) none), units := some "celsius" } }

example : (match (conform demoUnits demoDateBounds "K").1.bounds with
    | some { data := some (.num f), .. } => f (0, 0)
    | _ => 0) = 300 + 5463 / 20 := by decide +kernel

end Ocgis.Props
