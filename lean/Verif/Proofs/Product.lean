/-!
# Row-major enumeration
-/
namespace Ocgis

theorem flatMap_rowMajor {α : Type _} (R C : Nat) (f : Nat → Nat → α) (hC : 0 < C) :
    ((List.range R).flatMap fun r => (List.range C).map (f r)) = (List.range (R * C)).map fun k => f (k / C) (k % C) := by
  induction R with
  | zero => simp
  | succ R ih =>
    rw [List.range_succ, List.flatMap_append, ih, Nat.succ_mul, List.range_add, List.map_append]
    congr 1
    simp only [List.flatMap_cons, List.flatMap_nil, List.append_nil, List.map_map]
    apply List.map_congr_left
    intro c hc
    have hc := List.mem_range.1 hc
    simp only [Function.comp]
    rw [Nat.add_comm, Nat.add_mul_div_right _ _ hC, Nat.div_eq_of_lt hc, Nat.add_mul_mod_self_right, Nat.mod_eq_of_lt hc, Nat.zero_add]

theorem rowMajor_get {α : Type _} (R C : Nat) (f : Nat → Nat → α) (r c : Nat) (hr : r < R) (hc : c < C) :
    ((List.range R).flatMap fun r => (List.range C).map (f r))[r * C + c]? = some (f r c) := by
  have hC : 0 < C := by omega
  have hlt : r * C + c < R * C := by
    have : (r + 1) * C ≤ R * C := Nat.mul_le_mul_right C hr
    rw [Nat.succ_mul] at this
    omega
  rw [flatMap_rowMajor R C f hC, List.getElem?_map, List.getElem?_range hlt]
  simp only [Option.map_some]
  rw [Nat.add_comm, Nat.add_mul_div_right _ _ hC, Nat.div_eq_of_lt hc, Nat.add_mul_mod_self_right, Nat.mod_eq_of_lt hc, Nat.zero_add]

theorem rowMajor_length {α : Type _} (R C : Nat) (f : Nat → Nat → α) :
    ((List.range R).flatMap fun r => (List.range C).map (f r)).length = R * C := by
  induction R with
  | zero => simp
  | succ R ih => rw [List.range_succ, List.flatMap_append, List.length_append, ih, Nat.succ_mul]; simp

end Ocgis
