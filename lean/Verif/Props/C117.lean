import Verif.Proofs.ExtentGlobal
/-!
# C117: The extent of a grid spread over processes
-/
namespace Ocgis.Props
open Spec Ocgis.ExtentGlobal Proofs.ExtentGlobal

private def west : Part := ⟨[⟨1, false⟩, ⟨2, true⟩], [⟨10, false⟩, ⟨11, false⟩]⟩
private def east : Part := ⟨[⟨3, false⟩, ⟨9, true⟩], [⟨10, false⟩, ⟨12, false⟩]⟩
private def openSea : Part := ⟨[⟨20, true⟩], [⟨10, true⟩]⟩

/-- On every process the extent is that of all parts together: least and greatest of all the values that count. Missing: no part may be empty
(`C117_empty_never`) or without any value that counts (`C117_masked_never`). -/
theorem C117_extent_partial (vectorized : Bool) (ps : List Part) (hne : ps ≠ []) (h : ∀ p ∈ ps, HasValues vectorized p) :
    ∃ e, IsExtentOf vectorized ps e ∧ extentGlobal vectorized (ps.map some) = ps.map fun _ => .returns e :=
  ⟨_, reduce_spec vectorized ps hne h, outcome_full vectorized ps⟩

example : (∀ p ∈ [west, east], HasValues false p) ∧ extentGlobal false [some west, some east] =
    [.returns ⟨some 1, some 10, some 3, some 12⟩, .returns ⟨some 1, some 10, some 3, some 12⟩] := by
  refine ⟨?_, by decide +kernel⟩
  intro p hp
  simp only [List.mem_cons, List.not_mem_nil, or_false] at hp
  rcases hp with rfl | rfl
  · exact ⟨⟨1, ⟨1, false⟩, by decide +kernel, rfl, fun _ => rfl⟩, ⟨10, ⟨10, false⟩, by decide +kernel, rfl, fun _ => rfl⟩⟩
  · exact ⟨⟨3, ⟨3, false⟩, by decide +kernel, rfl, fun _ => rfl⟩, ⟨10, ⟨10, false⟩, by decide +kernel, rfl, fun _ => rfl⟩⟩

/-- There is only one extent of the parts together, so the result does not depend on how the values are spread: parts with the same values in all
have the same extent, on any number of processes. -/
theorem C117_spread_partial (vectorized : Bool) (ps qs : List Part) (hp : ps ≠ []) (hq : qs ≠ []) (h1 : ∀ p ∈ ps, HasValues vectorized p)
    (h2 : ∀ p ∈ qs, HasValues vectorized p) (hx : ∀ v, (∃ p ∈ ps, Counts vectorized p.xs v) ↔ ∃ p ∈ qs, Counts vectorized p.xs v)
    (hy : ∀ v, (∃ p ∈ ps, Counts vectorized p.ys v) ↔ ∃ p ∈ qs, Counts vectorized p.ys v) :
    ∃ e, extentGlobal vectorized (ps.map some) = (ps.map fun _ => .returns e) ∧ extentGlobal vectorized (qs.map some) = qs.map fun _ => .returns e := by
  obtain ⟨e, ⟨x0, y0, x1, y1, he, a1, a2, a3, a4⟩, ho⟩ := C117_extent_partial vectorized ps hp h1
  obtain ⟨e', ⟨x0', y0', x1', y1', he', b1, b2, b3, b4⟩, ho'⟩ := C117_extent_partial vectorized qs hq h2
  have fx : (fun q => ∃ p ∈ ps, Counts vectorized p.xs q) = fun q => ∃ p ∈ qs, Counts vectorized p.xs q := funext fun v => propext (hx v)
  have fy : (fun q => ∃ p ∈ ps, Counts vectorized p.ys q) = fun q => ∃ p ∈ qs, Counts vectorized p.ys q := funext fun v => propext (hy v)
  rw [fx] at a1 a3
  rw [fy] at a2 a4
  have : e = e' := by
    rw [he, he', least_unique a1 b1, least_unique a2 b2, greatest_unique a3 b3, greatest_unique a4 b4]
  subst this
  exact ⟨e, ho, ho'⟩

/-- In particular it is the extent that one process with all the values has. -/
theorem C117_serial_partial (vectorized : Bool) (ps : List Part) (hne : ps ≠ []) (h : ∀ p ∈ ps, HasValues vectorized p) :
    ∃ e, extentGlobal vectorized (ps.map some) = (ps.map fun _ => .returns e) ∧
      extentGlobal vectorized [some { xs := ps.flatMap (·.xs), ys := ps.flatMap (·.ys) }] = [.returns e] := by
  have key : ∀ (f : Part → List Cell) (v : Rat), (∃ p ∈ ps, Counts vectorized (f p) v) ↔ Counts vectorized (ps.flatMap f) v := by
    intro f v
    unfold Counts
    constructor
    · rintro ⟨p, hp, c, hc, h⟩; exact ⟨c, List.mem_flatMap.2 ⟨p, hp, hc⟩, h⟩
    · rintro ⟨c, hc, h⟩
      obtain ⟨p, hp, hc⟩ := List.mem_flatMap.1 hc
      exact ⟨p, hp, c, hc, h⟩
  refine C117_spread_partial vectorized ps [{ xs := ps.flatMap (·.xs), ys := ps.flatMap (·.ys) }] hne (by simp) h ?_ ?_ ?_
  · intro p hp
    rw [List.mem_singleton.1 hp]
    obtain ⟨p0, hp0⟩ := List.exists_mem_of_ne_nil _ hne
    obtain ⟨⟨q1, k1⟩, q2, k2⟩ := h p0 hp0
    exact ⟨⟨q1, (key (·.xs) q1).1 ⟨p0, hp0, k1⟩⟩, q2, (key (·.ys) q2).1 ⟨p0, hp0, k2⟩⟩
  · intro v
    rw [key (·.xs) v]
    simp
  · intro v
    rw [key (·.ys) v]
    simp

/-- A grid with coordinates in two dimensions of which one part has masked values only has no extent at all: it is not-a-number on every
process, although other parts have values. -/
theorem C117_masked_never (ps : List Part) (p : Part) (hp : p ∈ ps) (hx : ∀ c ∈ p.xs, c.masked = true) (hy : ∀ c ∈ p.ys, c.masked = true) :
    extentGlobal false (ps.map some) = ps.map fun _ => .returns ⟨none, none, none, none⟩ := by
  rw [outcome_full]
  have ex : counted false p.xs = [] := counted_nil (by
    rintro ⟨q, c, hc, -, hm⟩
    have := hx c hc
    rw [hm rfl] at this
    cases this)
  have ey : counted false p.ys = [] := counted_nil (by
    rintro ⟨q, c, hc, -, hm⟩
    have := hy c hc
    rw [hm rfl] at this
    cases this)
  have hr : reduce (ps.map (extentOf false)) = ⟨none, none, none, none⟩ := by
    have hmin : ∀ f : Part → Option Rat, f p = none → npMin (ps.map f) = none := by
      intro f hf
      unfold npMin
      rw [if_pos]
      rw [List.contains_eq_mem, decide_eq_true_eq, List.mem_map]
      exact ⟨p, hp, hf⟩
    have hmax : ∀ f : Part → Option Rat, f p = none → npMax (ps.map f) = none := by
      intro f hf
      unfold npMax
      rw [if_pos]
      rw [List.contains_eq_mem, decide_eq_true_eq, List.mem_map]
      exact ⟨p, hp, hf⟩
    simp only [reduce, List.map_map, Function.comp_def, extentOf]
    rw [hmin _ (by rw [ex]; rfl), hmin _ (by rw [ey]; rfl), hmax _ (by rw [ex]; rfl), hmax _ (by rw [ey]; rfl)]
  rw [hr]

example : extentGlobal false [some west, some openSea] = [.returns ⟨none, none, none, none⟩, .returns ⟨none, none, none, none⟩] := by decide +kernel

/-- A single process with the same values has an extent. -/
example : extentGlobal false [some ⟨west.xs ++ openSea.xs, west.ys ++ openSea.ys⟩] = [.returns ⟨some 1, some 10, some 1, some 11⟩] := by decide +kernel

/-- Grids with one coordinate variable for each direction count masked values too. -/
theorem C117_vectorized_never (ps : List Part) (hne : ps ≠ []) (h : ∀ p ∈ ps, p.xs ≠ [] ∧ p.ys ≠ []) :
    ∃ e x0 x1, extentGlobal true (ps.map some) = (ps.map fun _ => .returns e) ∧ e.minx = some x0 ∧ e.maxx = some x1 ∧
      ∀ p ∈ ps, ∀ c ∈ p.xs, x0 ≤ c.value ∧ c.value ≤ x1 := by
  have hv : ∀ (cells : List Cell), cells ≠ [] → ∃ q, Counts true cells q := by
    intro cells hc
    obtain ⟨c, hc⟩ := List.exists_mem_of_ne_nil _ hc
    exact ⟨c.value, c, hc, rfl, by intro h; cases h⟩
  obtain ⟨e, ⟨x0, y0, x1, y1, he, a1, -, a3, -⟩, ho⟩ := C117_extent_partial true ps hne fun p hp => ⟨hv _ (h p hp).1, hv _ (h p hp).2⟩
  refine ⟨e, x0, x1, ho, by rw [he], by rw [he], ?_⟩
  intro p hp c hc
  have : ∃ p ∈ ps, Counts true p.xs c.value := ⟨p, hp, c, hc, rfl, by intro h; cases h⟩
  exact ⟨a1.2 _ this, a3.2 _ this⟩

example : extentGlobal true [some west, some east] =
    [.returns ⟨some 1, some 10, some 9, some 12⟩, .returns ⟨some 1, some 10, some 9, some 12⟩] := by decide +kernel

/-- If a part is empty no process gets an extent: it raises there, and all processes with values wait without end. -/
theorem C117_empty_never (vectorized : Bool) (parts : List (Option Part)) (h : none ∈ parts) (i : Nat) (p : Option Part) (hp : parts[i]? = some p) :
    (p = none → (extentGlobal vectorized parts)[i]? = some (.raises .emptyObject)) ∧
    (p.isSome → (extentGlobal vectorized parts)[i]? = some .waits) := by
  have hc : parts.contains none = true := by simpa using h
  unfold extentGlobal
  rw [if_pos hc, List.getElem?_map, hp]
  constructor
  · rintro rfl; rfl
  · intro hs
    cases p with
    | none => cases hs
    | some p => rfl

example : extentGlobal true [some west, none] = [.waits, .raises .emptyObject] := by decide +kernel

end Ocgis.Props
