import Verif.Spec.CliHistory
namespace Ocgis.Proofs.CliHistory
open Ocgis.CliHistory Spec

/-- The word of a text option is recognised, for all parameters. -/
def textOk (p : Parm) : Bool := match p.kind with
  | .text .. => match recognise ("--" ++ p.name) with
    | some (.takesValue n) => n = p.name
    | _ => false
  | .flag .. => match recognise ("--no_" ++ p.name) with
    | some (.takesValue _) => false
    | _ => true

theorem all_ok : ∀ p ∈ parms, textOk p = true := by decide +kernel

theorem false_unknown : recognise "False" = none := by
  have : (recognise "False").isNone = true := by decide +kernel
  simpa using this

/-- The words of some of the parameters: refused if a flag is not set, and otherwise no flag is touched. -/
theorem parse_parms (s : Settings) : ∀ (l : List Parm), (∀ p ∈ l, p ∈ parms) → ∀ r,
    ((∃ p ∈ l, isFlag p = true ∧ s.flag p.name = false) → parse ((l.filterMap (historyParm s)).flatMap fun x => [x.1, x.2]) r = .error .valueError) ∧
    ((∀ p ∈ l, isFlag p = true → s.flag p.name = true) →
      ∃ r', parse ((l.filterMap (historyParm s)).flatMap fun x => [x.1, x.2]) r = .ok r' ∧ r'.flag = r.flag) := by
  intro l
  induction l with
  | nil => intro _ r; exact ⟨by simp, fun _ => ⟨r, rfl, rfl⟩⟩
  | cons p l ih =>
    intro hl r
    have ih := ih fun q hq => hl q (by simp [hq])
    have hp := all_ok p (hl p (by simp))
    obtain ⟨n, k⟩ := p
    cases k with
    | flag on off d =>
      by_cases hs : s.flag n = true
      · have e : historyParm s ⟨n, .flag on off d⟩ = none := by simp [historyParm, hs]
        rw [List.filterMap_cons_none e]
        refine ⟨?_, fun h => (ih r).2 fun q hq => h q (by simp [hq])⟩
        rintro ⟨q, hq, h1, h2⟩
        rcases List.mem_cons.1 hq with rfl | hq
        · simp [hs] at h2
        · exact (ih r).1 ⟨q, hq, h1, h2⟩
      · have e : historyParm s ⟨n, .flag on off d⟩ = some ("--no_" ++ n, "False") := by simp [historyParm, hs]
        rw [List.filterMap_cons_some e, List.flatMap_cons]
        refine ⟨fun _ => ?_, fun h => absurd (h ⟨n, .flag on off d⟩ (by simp) rfl) hs⟩
        simp only [textOk] at hp
        show parse (("--no_" ++ n) :: "False" :: _) r = _
        rw [parse]
        cases hr : recognise ("--no_" ++ n) with
        | none => rfl
        | some w =>
          cases w with
          | setFlag m b =>
            simp only
            rw [parse, false_unknown]
          | takesValue m => simp [hr] at hp
    | text o d =>
      simp only [textOk] at hp
      cases hs : s.text n with
      | none =>
        have e : historyParm s ⟨n, .text o d⟩ = none := by simp [historyParm, hs]
        rw [List.filterMap_cons_none e]
        refine ⟨?_, fun h => (ih r).2 fun q hq => h q (by simp [hq])⟩
        rintro ⟨q, hq, h1, h2⟩
        rcases List.mem_cons.1 hq with rfl | hq
        · simp [isFlag] at h1
        · exact (ih r).1 ⟨q, hq, h1, h2⟩
      | some v =>
        have e : historyParm s ⟨n, .text o d⟩ = some ("--" ++ n, v) := by simp [historyParm, hs]
        rw [List.filterMap_cons_some e, List.flatMap_cons]
        have step : ∀ rest, parse (("--" ++ n) :: v :: rest) r = parse rest (withText r n v) := by
          intro rest
          rw [parse]
          cases hr : recognise ("--" ++ n) with
          | none => simp [hr] at hp
          | some w =>
            cases w with
            | setFlag m b => simp [hr] at hp
            | takesValue m =>
              have : m = n := by simpa [hr] using hp
              subst this
              rfl
        refine ⟨?_, ?_⟩
        · rintro ⟨q, hq, h1, h2⟩
          rcases List.mem_cons.1 hq with rfl | hq
          · simp [isFlag] at h1
          · show parse (("--" ++ n) :: v :: _) r = _
            rw [step]
            exact (ih _).1 ⟨q, hq, h1, h2⟩
        · intro h
          obtain ⟨r', e1, e2⟩ := (ih (withText r n v)).2 fun q hq => h q (by simp [hq])
          refine ⟨r', ?_, e2⟩
          show parse (("--" ++ n) :: v :: _) r = _
          rw [step]
          exact e1

theorem pairs_inj : ∀ a b : List (String × String), (a.flatMap fun x => [x.1, x.2]) = (b.flatMap fun x => [x.1, x.2]) → a = b := by
  intro a
  induction a with
  | nil =>
    intro b h
    cases b with
    | nil => rfl
    | cons y b => simp at h
  | cons x a ih =>
    intro b h
    cases b with
    | nil => simp at h
    | cons y b =>
      simp only [List.flatMap_cons, List.cons_append, List.nil_append, List.cons.injEq] at h
      rw [ih b h.2.2, Prod.ext h.1 h.2.1]

/-- The key a parameter has in the history. -/
def keyOf (p : Parm) : String := if isFlag p then "--no_" ++ p.name else "--" ++ p.name

theorem keys_differ : (parms.map keyOf).Nodup := by decide +kernel

theorem key_unique : ∀ p ∈ parms, ∀ q ∈ parms, keyOf p = keyOf q → p = q := by decide +kernel

theorem historyParm_key (s : Settings) (p : Parm) (x : String × String) (h : historyParm s p = some x) : x.1 = keyOf p := by
  obtain ⟨n, k⟩ := p
  cases k with
  | flag on off d =>
    by_cases hs : s.flag n = true
    · simp [historyParm, hs] at h
    · simp [historyParm, hs] at h
      rw [← h]
      rfl
  | text o d =>
    simp only [historyParm, Option.map_eq_some_iff] at h
    obtain ⟨v, _, rfl⟩ := h
    rfl

theorem mem_parms (s : Settings) (p : Parm) (hp : p ∈ parms) (v : String) : (keyOf p, v) ∈ historyParms s ↔ historyParm s p = some (keyOf p, v) := by
  rw [historyParms, List.mem_filterMap]
  constructor
  · rintro ⟨q, hq, e⟩
    have := key_unique p hp q hq (historyParm_key s q _ e)
    rw [this] at e ⊢
    exact e
  · exact fun e => ⟨p, hp, e⟩

theorem parm_eq (s t : Settings) (h : historyParms s = historyParms t) (p : Parm) (hp : p ∈ parms) : historyParm s p = historyParm t p := by
  cases hs : historyParm s p with
  | none =>
    cases ht : historyParm t p with
    | none => rfl
    | some y =>
      have e := historyParm_key t p y ht
      have : (keyOf p, y.2) ∈ historyParms t := (mem_parms t p hp y.2).2 (by rw [ht, ← e])
      rw [← h, mem_parms s p hp, hs] at this
      cases this
  | some x =>
    have e := historyParm_key s p x hs
    have : (keyOf p, x.2) ∈ historyParms s := (mem_parms s p hp x.2).2 (by rw [hs, ← e])
    rw [h, mem_parms t p hp, ← e] at this
    exact this.symm

end Ocgis.Proofs.CliHistory
