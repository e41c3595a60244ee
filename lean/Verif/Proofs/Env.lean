import Verif.Spec.Env
import Verif.Proofs.Text
/-!
# Lemmas
-/
namespace Ocgis.Props
open Ocgis Ocgis.Text Ocgis.Env Ocgis.Spec

/-- The stored value of a parameter. -/
def slot (st : State) (name : String) : Option Parm := st.find? fun p => p.name == name

theorem slot_store (st : State) (n m : String) (v : Val) :
    slot (store st n v) m = if m = n then (slot st m).map fun p => { p with stored := v } else slot st m := by
  induction st with
  | nil => simp [slot, store]
  | cons p st ih =>
    simp only [slot, store, List.map_cons, List.find?_cons] at ih ⊢
    by_cases hp : p.name = n
    · simp only [hp, if_true]
      by_cases hm : m = n
      · subst hm; simp
      · have : (n == m) = false := by simpa using fun e => hm e.symm
        simp only [this]
        exact ih
    · simp only [hp, if_false]
      by_cases hpm : p.name = m
      · have hmn : m ≠ n := fun e => hp (hpm.trans e)
        simp [hpm, hmn]
      · have : (p.name == m) = false := by simpa using hpm
        simp only [this]
        exact ih

theorem slot_assign (st : State) (n m : String) (v : Val) (h : m ≠ n) : slot (assign st n v).2 m = slot st m := by
  rw [assign]
  split
  · rfl
  · split
    · rw [slot_store, if_neg h]
    · rfl

theorem slot_probe (w : World) (st : State) (n m : String) (b : Bool) (h : m ≠ n) : slot (probe w n b st).2 m = slot st m := by
  rw [probe]
  split
  · rfl
  · exact slot_assign _ _ _ _ h
  · rfl

theorem slot_init (w : World) (m : String) (h : m ∉ probed) : slot (init w).2 m = slot (fresh w) m := by
  simp only [probed, List.mem_cons, List.not_mem_nil, or_false, not_or] at h
  have h1 := slot_probe w (fresh w) "PREFER_NETCDFTIME" m w.netcdftime h.1
  rw [init]
  split
  · next e st hst => rw [hst] at h1; exact h1
  · next u st hst =>
    rw [hst] at h1
    rw [slot_probe _ _ _ _ _ h.2]; exact h1

theorem names_store (st : State) (n : String) (v : Val) : (store st n v).map (fun p => p.name) = st.map (fun p => p.name) := by
  rw [store, List.map_map]
  apply List.map_congr_left
  intro p _
  simp only [Function.comp]
  split <;> rfl

theorem names_assign (st : State) (n : String) (v : Val) : (assign st n v).2.map (fun p => p.name) = st.map (fun p => p.name) := by
  rw [assign]
  split
  · rfl
  · split
    · exact names_store _ _ _
    · rfl

theorem names_probe (w : World) (st : State) (n : String) (b : Bool) : (probe w n b st).2.map (fun p => p.name) = st.map (fun p => p.name) := by
  rw [probe]
  split
  · rfl
  · exact names_assign _ _ _
  · rfl

theorem names_init (w : World) : (init w).2.map (fun p => p.name) = (declarations w).map (fun d => d.name) := by
  have h0 : (fresh w).map (fun p => p.name) = (declarations w).map (fun d => d.name) := by
    simp [fresh, List.map_map, Function.comp_def]
  have h1 := names_probe w (fresh w) "PREFER_NETCDFTIME" w.netcdftime
  rw [init]
  split
  · next e st hst => rw [hst] at h1; rw [h1, h0]
  · next u st hst => rw [hst] at h1; rw [names_probe, h1, h0]

theorem declared_names (w : World) : (declarations w).map (fun d => d.name) = names := rfl

theorem names_run (w : World) (st : State) (h : st.map (fun p => p.name) = names) (es : List Event) :
    (run (w, st) es).2.map (fun p => p.name) = names := by
  induction es generalizing w st with
  | nil => exact h
  | cons e es ih =>
    simp only [run, List.foldl_cons] at ih ⊢
    cases e with
    | set n v => exact ih _ _ (by rw [names_assign]; exact h)
    | reset => exact ih _ _ (by rw [names_init, declared_names])
    | os n v => exact ih _ _ h
    | chdir d => exact ih _ _ h

theorem slot_run (w : World) (st : State) (m : String) (es : List Event) (h : ∀ e ∈ es, ¬ Touches m e) :
    slot (run (w, st) es).2 m = slot st m := by
  induction es generalizing w st with
  | nil => rfl
  | cons e es ih =>
    have he := h e (by simp)
    have hes : ∀ e ∈ es, ¬ Touches m e := fun e he => h e (by simp [he])
    simp only [run, List.foldl_cons] at ih ⊢
    cases e with
    | set n v =>
      rw [step, ih _ _ hes, slot_assign]
      intro hm; exact he hm.symm
    | reset => exact absurd trivial he
    | os n v => rw [step, ih _ _ hes]
    | chdir d => rw [step, ih _ _ hes]

theorem coordsys_not_name : "DEFAULT_COORDSYS" ∉ names := by decide

theorem read_slot (w : World) (st : State) (m : String) (hm : m ∈ names) (p : Parm) (h : slot st m = some p) :
    read w st m = p.value w := by
  have : m ≠ "DEFAULT_COORDSYS" := by rintro rfl; exact coordsys_not_name hm
  rw [Env.read, if_neg this]
  simp only [slot] at h
  rw [h]

theorem slot_of_name (st : State) (h : st.map (fun p => p.name) = names) (m : String) (hm : m ∈ names) :
    ∃ p, slot st m = some p ∧ p.name = m := by
  rw [← h] at hm
  obtain ⟨p, hp, hpm⟩ := List.mem_map.1 hm
  cases hs : slot st m with
  | none =>
    simp only [slot, List.find?_eq_none] at hs
    exact absurd (hs p hp) (by simp [hpm])
  | some q =>
    refine ⟨q, rfl, ?_⟩
    simpa using List.find?_some hs

theorem slot_fresh (w : World) (d : Decl) (hd : d ∈ declarations w) : slot (fresh w) d.name = some { d with stored := useEnv } := by
  have key : ∀ (ds : List Decl), (ds.map (fun d => d.name)).Nodup → d ∈ ds →
      (ds.map fun d => ({ d with stored := useEnv } : Parm)).find? (fun p => p.name == d.name) = some { d with stored := useEnv } := by
    intro ds hn hm
    induction ds with
    | nil => cases hm
    | cons e ds ih =>
      simp only [List.map_cons, List.nodup_cons] at hn
      simp only [List.mem_cons] at hm
      rcases hm with rfl | hm
      · simp
      · have : (e.name == d.name) = false := by
          simp only [beq_eq_false_iff_ne, ne_eq]
          intro he
          exact hn.1 (he ▸ List.mem_map.2 ⟨d, hm, rfl⟩)
        simp only [List.map_cons, List.find?_cons, this]
        exact ih hn.2 hm
  exact key _ (by rw [declared_names]; decide) hd

theorem value_unset (w : World) (d : Decl) (hdef : (∃ ms, d.kind = .module ms) → d.default = .none) :
    UnsetReads w d (Parm.value w { d with stored := useEnv }) := by
  rw [Parm.value, if_pos rfl]
  simp only
  cases hos : w.os ("OCGIS_" ++ d.name) with
  | none =>
    simp only [fallback]
    split
    · next ms hk hd =>
      exact .library ms _ hos hk hd (by simp)
    · next v h =>
      cases hk : d.kind with
      | module ms => exact absurd (hdef ⟨ms, hk⟩) (fun e => h ms hk e)
      | plain => exact .default hos (by simp [hk])
      | bool => exact .default hos (by simp [hk])
      | float => exact .default hos (by simp [hk])
      | str => exact .default hos (by simp [hk])
  | some s =>
    have flag : (d.kind = .bool ∨ ∃ ms, d.kind = .module ms) → UnsetReads w d ((formatBool s).map .bool) := by
      intro hk
      cases hf : formatBool s with
      | ok b => exact .flag s b hos hk ((formatBool_iff s b).1 hf)
      | error e =>
        rw [formatBool_error s e hf]
        refine .notFlag s hos hk ?_
        rintro ⟨b, hb⟩
        rw [(formatBool_iff s b).2 hb] at hf
        cases hf
    cases hk : d.kind with
    | plain => exact .text s hos (.inl hk)
    | bool => exact flag (.inl hk)
    | float =>
      simp only [format]
      cases hf : w.parseFloat s with
      | some q => exact .number s q hos hk hf
      | none => exact .notNumber s hos hk hf
    | str => exact .text s hos (.inr hk)
    | module ms => exact flag (.inr ⟨ms, hk⟩)

theorem module_default (w : World) (d : Decl) (hd : d ∈ declarations w) : (∃ ms, d.kind = .module ms) → d.default = .none := by
  intro h
  obtain ⟨ms, h⟩ := h
  simp only [declarations, List.mem_cons, List.not_mem_nil, or_false] at hd
  rcases hd with rfl | rfl | rfl | rfl | rfl | rfl | rfl | rfl | rfl | rfl | rfl | rfl | rfl | rfl | rfl | rfl | rfl |
    rfl | rfl | rfl | rfl | rfl | rfl | rfl | rfl | rfl | rfl | rfl | rfl | rfl | rfl | rfl | rfl | rfl <;>
    first | rfl | (simp at h)

end Ocgis.Props
