import Verif.Spec.RegridDest
import Verif.Proofs.Text
/-!
# Lemmas on the dataset to regrid to
-/
namespace Ocgis.Proofs.RegridDest
open Spec Ocgis.RegridDest Ocgis.Text

theorem lower_not_capital (c : Char) : ¬ Capital c.toLower := by
  unfold Capital Char.toLower
  by_cases h : c.val ≥ 'A'.val ∧ c.val ≤ 'Z'.val
  · rw [dif_pos h]
    rintro ⟨-, h2⟩
    have h1 := UInt32.le_iff_toNat_le.1 h.1
    have h3 := UInt32.le_iff_toNat_le.1 h.2
    have h4 : (c.val + ('a'.val - 'A'.val)).toNat ≤ 'Z'.val.toNat := UInt32.le_iff_toNat_le.1 h2
    rw [UInt32.toNat_add] at h4
    have e1 : ('a'.val - 'A'.val).toNat = 32 := by decide
    have e2 : 'Z'.val.toNat = 90 := by decide
    have e3 : 'A'.val.toNat = 65 := by decide
    rw [e1, e2] at h4
    rw [e2] at h3
    rw [e3] at h1
    omega
  · rw [dif_neg h]
    exact h

theorem lower_id (c : Char) (h : ¬ Capital c) : c.toLower = c := by
  unfold Char.toLower
  have h' : ¬ (c.val ≥ 'A'.val ∧ c.val ≤ 'Z'.val) := h
  rw [dif_neg h']

theorem lower_text (s : Text) (h : ∀ c ∈ s, ¬ Capital c) : lower s = s := by
  unfold lower
  conv => rhs; rw [← List.map_id s]
  exact List.map_congr_left fun c hc => lower_id c (h c hc)

theorem format_lookedUp (s : Text) (h : LookedUp s) : format (.text s) = .text s := by
  unfold format
  simp only [lower_text s h.1, Ocgis.Props.trimmed_strip s s h.2.1, h.2.2, if_false]

theorem strip_mem (s : Text) : ∀ c ∈ strip s, c ∈ s := by
  obtain ⟨⟨a, b, hs, -, -⟩, -⟩ := Ocgis.Props.strip_trimmed s
  intro c hc
  rw [hs]
  simp [hc]

/-- What looking up finds. -/
theorem find_spec (s : Text) : ∀ (ds : List Dataset) (i : Nat) (found : Option Nat), (∀ d ∈ ds, d.isField = false) →
    ∃ r, find s i ds found = .ok r ∧
      ((∃ (j : Nat) (d : Dataset), ds[j]? = some d ∧ d.name = s ∧ r = some (i + j) ∧ ∀ (k : Nat) (e : Dataset), j < k → ds[k]? = some e → e.name ≠ s) ∨
        ((∀ d ∈ ds, d.name ≠ s) ∧ r = found))
  | [], i, found, _ => ⟨found, rfl, Or.inr ⟨by simp, rfl⟩⟩
  | d :: ds, i, found, h => by
    obtain ⟨r, hr, hc⟩ := find_spec s ds (i + 1) (if d.name = s then some i else found) fun e he => h e (List.mem_cons_of_mem _ he)
    refine ⟨r, ?_, ?_⟩
    · rw [find, if_neg (by rw [h d (List.mem_cons_self ..)]; simp), hr]
    · rcases hc with ⟨j, e, hj, hn, hre, hl⟩ | ⟨hn, hre⟩
      · refine Or.inl ⟨j + 1, e, by simpa using hj, hn, by rw [hre]; congr 1; omega, ?_⟩
        intro k x hk hx
        cases k with
        | zero => omega
        | succ k => exact hl k x (by omega) (by simpa using hx)
      · by_cases hd : d.name = s
        · refine Or.inl ⟨0, d, rfl, hd, by rw [hre, if_pos hd, Nat.add_zero], ?_⟩
          intro k x hk hx
          cases k with
          | zero => omega
          | succ k => exact hn x (List.mem_of_getElem? (by simpa using hx))
        · rw [if_neg hd] at hre
          exact Or.inr ⟨by
            intro e he
            rcases List.mem_cons.1 he with rfl | he
            · exact hd
            · exact hn e he, hre⟩

theorem find_field (s : Text) : ∀ (ds : List Dataset) (i : Nat) (found : Option Nat), (∃ d ∈ ds, d.isField = true) →
    find s i ds found = .error .attributeError
  | [], _, _, h => by obtain ⟨d, hd, -⟩ := h; cases hd
  | d :: ds, i, found, h => by
    rw [find]
    by_cases hd : d.isField = true
    · rw [if_pos hd]
    · rw [if_neg hd]
      apply find_field s ds
      obtain ⟨e, he, hf⟩ := h
      rcases List.mem_cons.1 he with rfl | he
      · exact absurd hf hd
      · exact ⟨e, he, hf⟩

theorem flagged_one : ∀ (ds : List Dataset) (i j : Nat) (d : Dataset), ds[j]? = some d → d.dest = true →
    (∀ (k : Nat) (e : Dataset), ds[k]? = some e → e.dest = true → k = j) → flagged i ds = some (i + j) ∧ (ds.filter (·.dest)).length = 1
  | [], _, _, _, h, _, _ => by simp at h
  | x :: ds, i, j, d, h, hd, hu => by
    cases j with
    | zero =>
      simp only [List.getElem?_cons_zero, Option.some.injEq] at h
      subst h
      have hr : ds.filter (·.dest) = [] := by
        rw [List.filter_eq_nil_iff]
        intro e he hf
        obtain ⟨k, hk⟩ := List.mem_iff_getElem?.1 he
        have := hu (k + 1) e (by simpa using hk) hf
        omega
      exact ⟨by rw [flagged, if_pos hd, Nat.add_zero], by rw [List.filter_cons, if_pos hd, hr]; rfl⟩
    | succ j =>
      have hx : ¬ x.dest = true := by
        intro hx
        have := hu 0 x rfl hx
        omega
      obtain ⟨h1, h2⟩ := flagged_one ds (i + 1) j d (by simpa using h) hd (by
        intro k e hk he
        have := hu (k + 1) e (by simpa using hk) he
        omega)
      refine ⟨?_, ?_⟩
      · rw [flagged, if_neg hx, h1]
        congr 1
        omega
      · rw [List.filter_cons, if_neg hx, h2]

theorem flagged_none : ∀ (ds : List Dataset) (i : Nat), (∀ d ∈ ds, d.dest = false) → flagged i ds = none ∧ ds.filter (·.dest) = []
  | [], _, _ => ⟨rfl, rfl⟩
  | x :: ds, i, h => by
    have hx := h x (List.mem_cons_self ..)
    obtain ⟨h1, h2⟩ := flagged_none ds (i + 1) fun d hd => h d (List.mem_cons_of_mem _ hd)
    exact ⟨by rw [flagged, if_neg (by rw [hx]; simp), h1], by rw [List.filter_cons, if_neg (by rw [hx]; simp), h2]⟩

theorem filter_two {ds : List Dataset} {i j : Nat} {a b : Dataset} (hi : ds[i]? = some a) (hj : ds[j]? = some b) (hij : i < j) (ha : a.dest = true)
    (hb : b.dest = true) : 1 < (ds.filter (·.dest)).length := by
  have h1 : a ∈ (ds.take j).filter (·.dest) := List.mem_filter.2 ⟨List.mem_of_getElem? (i := i) (by rw [List.getElem?_take, if_pos hij, hi]), ha⟩
  have h2 : b ∈ (ds.drop j).filter (·.dest) := List.mem_filter.2 ⟨List.mem_of_getElem? (i := 0) (by rw [List.getElem?_drop]; simpa using hj), hb⟩
  have h3 := List.length_pos_of_mem h1
  have h4 := List.length_pos_of_mem h2
  rw [← List.take_append_drop j ds, List.filter_append, List.length_append]
  omega

theorem source_some {ds : List Dataset} (h : ∃ d ∈ ds, d.source = true) : ¬ (ds.filter (·.source)).length < 1 := by
  obtain ⟨d, hd, hs⟩ := h
  have := List.length_pos_of_mem (List.mem_filter.2 ⟨hd, hs⟩ : d ∈ ds.filter (·.source))
  omega

theorem source_none {ds : List Dataset} (h : ∀ d ∈ ds, d.source = false) : (ds.filter (·.source)).length < 1 := by
  have : ds.filter (·.source) = [] := by
    rw [List.filter_eq_nil_iff]
    intro d hd
    rw [h d hd]
    simp
  rw [this]
  simp

end Ocgis.Proofs.RegridDest
