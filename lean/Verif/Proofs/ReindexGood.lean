import Verif.Proofs.Reindex
import Verif.Spec.Reindex
namespace Ocgis.Reindex
open Ocgis.Spec Ocgis.Comm

/-- What the two earlier collective steps give. -/
structure Prepared (c : Cfg) (start : Int) : Prop where
  nonneg : ∀ r, r < c.n → ∀ v ∈ c.cindex r, 0 ≤ v
  sorted : ∀ r, r < c.n → (c.u r).Pairwise (· < ·)
  mem : ∀ r, r < c.n → ∀ x, x ∈ c.u r ↔ x ∈ c.cindex r ∧ ∀ j, j < r → x ∉ c.cindex j
  first : ∀ r, r < c.n → c.u r ≠ [] → c.first r = start + prefixSize (fun r => (c.u r).length) r

/-- The least rank below `n` holding `v`. -/
def least (cindex : Nat → List Int) (v : Int) : Nat → Nat
  | 0 => 0
  | n + 1 => if ∃ j, j < n ∧ v ∈ cindex j then least cindex v n else n

theorem least_spec (cindex : Nat → List Int) (v : Int) (n : Nat) (h : ∃ j, j < n ∧ v ∈ cindex j) :
    least cindex v n < n ∧ v ∈ cindex (least cindex v n) ∧ ∀ j, j < least cindex v n → v ∉ cindex j := by
  induction n with
  | zero => obtain ⟨j, h, _⟩ := h; omega
  | succ n ih =>
    unfold least
    split
    · next hn => obtain ⟨a, b, c⟩ := ih hn; exact ⟨by omega, b, c⟩
    · next hn =>
      obtain ⟨j, h1, h2⟩ := h
      have : j = n := by
        rcases Nat.lt_or_ge j n with h | h
        · exact absurd ⟨j, h, h2⟩ hn
        · omega
      subst this
      exact ⟨by omega, h2, fun j hj hv => hn ⟨j, hj, hv⟩⟩

theorem lookup_some {c : Cfg} {r : Nat} {v : Int} (h : v ∈ c.u r) :
    ∃ k : Nat, c.lookup r v = some (c.first r + (k : Int)) ∧ (c.u r)[k]? = some v := by
  unfold Cfg.lookup
  cases e : (c.u r).idxOf? v with
  | none => rw [List.idxOf?_eq_none_iff] at e; exact absurd h e
  | some k =>
    refine ⟨k, rfl, ?_⟩
    rw [List.idxOf?, List.findIdx?_eq_some_iff_getElem] at e
    obtain ⟨hk, e1, _⟩ := e
    have := eq_of_beq e1
    rw [List.getElem?_eq_getElem hk, this]

theorem lookup_none {c : Cfg} {r : Nat} {v : Int} (h : v ∉ c.u r) : c.lookup r v = none := by
  unfold Cfg.lookup
  rw [List.idxOf?_eq_none_iff.2 h]; rfl

theorem good_of_prepared {c : Cfg} {start : Int} (h : Prepared c start) : Good c (fun v => least c.cindex v c.n) := by
  have spec : ∀ r, r < c.n → ∀ v ∈ c.cindex r, _ := fun r hr v hv => least_spec c.cindex v c.n ⟨r, hr, hv⟩
  have own : ∀ r, r < c.n → ∀ v ∈ c.cindex r, v ∈ c.u (least c.cindex v c.n) := fun r hr v hv => by
    obtain ⟨a, b, d⟩ := spec r hr v hv
    exact (h.mem _ a v).2 ⟨b, d⟩
  refine ⟨h.nonneg, ?_, ?_, ?_⟩
  · intro r hr v hv
    obtain ⟨k, e, _⟩ := lookup_some (own r hr v hv)
    exact ⟨_, e⟩
  · intro r s hr hs v hv hne
    apply lookup_none
    intro hm
    obtain ⟨a, b, d⟩ := spec r hr v hv
    obtain ⟨m1, m2⟩ := (h.mem s hs v).1 hm
    rcases Nat.lt_trichotomy s (least c.cindex v c.n) with x | x | x
    · exact d s x m1
    · exact hne x
    · exact m2 _ x b
  · intro r hr v hv hne
    obtain ⟨a, _, _⟩ := spec r hr v hv
    have hm := own r hr v hv
    have hnil : c.u (least c.cindex v c.n) ≠ [] := List.ne_nil_of_mem hm
    obtain ⟨mn, e1, _, b1⟩ := listMin_ok _ hnil
    obtain ⟨mx, e2, _, b2⟩ := listMax_ok _ hnil
    simp only [Cfg.overlaps, List.mem_filter, List.mem_range]
    refine ⟨a, ?_⟩
    simp only [Cfg.within, e1, e2, Bool.and_eq_true, decide_eq_true_eq, List.any_eq_true]
    exact ⟨by simpa using hne, v, hv, b1 v hm, b2 v hm⟩

theorem flatMap_get (u : Nat → List Int) (n r k : Nat) (hr : r < n) (v : Int) (hv : (u r)[k]? = some v) :
    ((List.range n).flatMap u)[prefixSize (fun r => (u r).length) r + k]? = some v := by
  have hlen : ∀ m, ((List.range m).flatMap u).length = prefixSize (fun r => (u r).length) m := by
    intro m
    induction m with
    | zero => rfl
    | succ m ih =>
      rw [List.range_succ, List.flatMap_append, List.length_append, ih]
      simp [prefixSize]
  induction n with
  | zero => omega
  | succ n ih =>
    rw [List.range_succ, List.flatMap_append]
    by_cases e : r = n
    · subst e
      rw [List.getElem?_append_right (by rw [hlen]; omega), hlen]
      simp only [List.flatMap_cons, List.flatMap_nil, List.append_nil]
      rw [show prefixSize (fun r => (u r).length) r + k - prefixSize (fun r => (u r).length) r = k by omega]
      exact hv
    · have := ih (by omega)
      rw [List.getElem?_append_left]
      · exact this
      · exact (List.getElem?_eq_some_iff.1 this).1

theorem new_refers {c : Cfg} {start : Int} (h : Prepared c start) (r : Nat) (hr : r < c.n) :
    Refers start ((List.range c.n).flatMap c.u) (c.cindex r)
      ((c.cindex r).map (c.new (fun v => least c.cindex v c.n))) := by
  refine ⟨by simp, ?_⟩
  intro i k v hk hv
  rw [List.getElem?_map, hv] at hk
  simp only [Option.map_some, Option.some.injEq] at hk
  subst hk
  have hmem : v ∈ c.cindex r := List.mem_of_getElem? hv
  obtain ⟨a, b, d⟩ := least_spec c.cindex v c.n ⟨r, hr, hmem⟩
  have hu := (h.mem _ a v).2 ⟨b, d⟩
  obtain ⟨j, e1, e2⟩ := lookup_some hu
  have hf := h.first _ a (List.ne_nil_of_mem hu)
  unfold Cfg.new
  simp only [e1, Option.getD_some, hf]
  refine ⟨by omega, ?_⟩
  rw [show (start + (prefixSize (fun r => (c.u r).length) (least c.cindex v c.n) : Int) + (j : Int) - start).toNat
    = prefixSize (fun r => (c.u r).length) (least c.cindex v c.n) + j by omega]
  exact flatMap_get c.u c.n _ j a v e2

theorem retains {c : Cfg} {start : Int} (h : Prepared c start) : Retains c.n c.cindex ((List.range c.n).flatMap c.u) := by
  refine ⟨?_, ?_⟩
  · rw [List.Nodup, List.pairwise_flatMap]
    refine ⟨fun r hr => (h.sorted r (List.mem_range.1 hr)).imp (fun h => by omega), ?_⟩
    refine List.Pairwise.imp_of_mem ?_ List.nodup_range
    intro a b ha hb hab
    have ha := List.mem_range.1 ha
    have hb := List.mem_range.1 hb
    intro x hx y hy hxy
    subst hxy
    have h1 := (h.mem a ha x).1 hx
    have h2 := (h.mem b hb x).1 hy
    rcases Nat.lt_or_gt_of_ne hab with q | q
    · exact h2.2 a q h1.1
    · exact h1.2 b q h2.1
  · intro v
    simp only [List.mem_flatMap, List.mem_range]
    constructor
    · rintro ⟨r, hr, hv⟩; exact ⟨r, hr, ((h.mem r hr v).1 hv).1⟩
    · rintro ⟨r, hr, hv⟩
      obtain ⟨a, b, d⟩ := least_spec c.cindex v c.n ⟨r, hr, hv⟩
      exact ⟨_, a, (h.mem _ a v).2 ⟨b, d⟩⟩

end Ocgis.Reindex
