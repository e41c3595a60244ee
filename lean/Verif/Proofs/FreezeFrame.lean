import Verif.Spec.FreezeFrame
namespace Ocgis.Proofs.FreezeFrame
open Ocgis.FreezeFrame Spec

theorem check_daily (c : Clock) (hd : Daily c) (h2 : 2 ≤ timesOf c) : checkStep c = .ok () := by
  cases c with
  | dates l =>
    match l, h2 with
    | a :: b :: l, _ =>
      have := hd 0 (by simp)
      simp only [List.getElem_cons_succ, List.getElem_cons_zero] at this
      rw [checkStep, if_pos this]
  | numbers days l =>
    obtain ⟨rfl, hd⟩ := hd
    match l, h2 with
    | a :: b :: l, _ =>
      have := hd 0 (by simp)
      simp only [List.getElem_cons_succ, List.getElem_cons_zero] at this
      rw [checkStep, if_pos rfl, if_pos this]

theorem kelvin_back (x : List (Series.Cell Rat)) : fromKelvin (inKelvin x) = x := by
  induction x with
  | nil => rfl
  | cons c x ih =>
    rw [fromKelvin, inKelvin] at ih ⊢
    rw [List.map_cons, List.map_cons, ih]
    congr 1
    refine Prod.ext ?_ rfl
    show c.1 + 27315 / 100 - 27315 / 100 = c.1
    grind

theorem kelvin_all (v : List (List (Series.Cell Rat))) : (v.map inKelvin).map fromKelvin = v := by
  rw [List.map_map]
  have : (fromKelvin ∘ inKelvin) = id := funext kelvin_back
  rw [this, List.map_id]

end Ocgis.Proofs.FreezeFrame
