import Verif.Spec.Parms
import Verif.Proofs.Text
import Verif.Proofs.MapM
/-!
# Lemmas
-/
namespace Ocgis.Props
open Ocgis Ocgis.Text Ocgis.Parms Ocgis.Spec

theorem lower_twice (c : Char) : c.toLower.toLower = c.toLower := by
  have key : ∀ d : Char, ¬ (d.val ≥ 'A'.val ∧ d.val ≤ 'Z'.val) → d.toLower = d := by
    intro d hd
    unfold Char.toLower
    rw [dif_neg hd]
  by_cases h : c.val ≥ 'A'.val ∧ c.val ≤ 'Z'.val
  · apply key
    have : c.toLower.val = c.val + ('a'.val - 'A'.val) := by
      unfold Char.toLower
      rw [dif_pos h]
    rw [this]
    rintro ⟨_, h2⟩
    have h3 : c.val.toNat ≤ 90 := h.2
    have h4 : 65 ≤ c.val.toNat := h.1
    have h5 : (c.val + ('a'.val - 'A'.val)).toNat ≤ 90 := h2
    rw [UInt32.toNat_add] at h5
    have h6 : ('a'.val - 'A'.val).toNat = 32 := rfl
    rw [h6] at h5
    omega
  · rw [key c h, key c h]

theorem bare_none (low : Bool) (s : Text) : bare low s = none ↔ Trimmed (if low then lower s else s) "none".toList := by
  rw [trimmed_iff]
  simp only [bare]
  by_cases h : strip (if low then lower s else s) = "none".toList
  · rw [if_pos h]; exact ⟨fun _ => h, fun _ => rfl⟩
  · rw [if_neg h]; exact ⟨fun h' => (nomatch h'), fun h' => absurd h' h⟩

theorem bare_some (low : Bool) (s t : Text) : bare low s = some t ↔ Trimmed (if low then lower s else s) t ∧ t ≠ "none".toList := by
  rw [trimmed_iff]
  simp only [bare]
  by_cases h : strip (if low then lower s else s) = "none".toList
  · rw [if_pos h, h]
    constructor
    · intro h; cases h
    · rintro ⟨h1, h2⟩; exact absurd h1.symm h2
  · rw [if_neg h]
    constructor
    · intro h1; injection h1 with h1; exact ⟨h1, by rw [← h1]; exact h⟩
    · rintro ⟨h1, _⟩; rw [h1]

theorem null_ok {D : Type} (n : Bool) (v : Val D) : (null n : Res (Val D)) = .ok v ↔ v = .null ∧ n = true := by
  cases n
  · simp [null]
  · simp only [null, if_true, and_true]
    constructor
    · intro h; injection h with h; exact h.symm
    · intro h; rw [h]

theorem boolWord_some (t : Text) (b : Bool) : boolWord t = some b ↔
    (b = true ∧ (t = "true".toList ∨ t = "t".toList ∨ t = "1".toList))
    ∨ (b = false ∧ (t = "false".toList ∨ t = "f".toList ∨ t = "0".toList)) := by
  simp only [boolWord, List.contains_eq_mem, List.mem_cons, List.not_mem_nil, or_false, decide_eq_true_eq]
  by_cases h1 : t = "true".toList ∨ t = "t".toList ∨ t = "1".toList
  · rw [if_pos h1]
    have h2 : ¬ (t = "false".toList ∨ t = "f".toList ∨ t = "0".toList) := by
      rcases h1 with h | h | h <;> subst h <;> decide
    constructor
    · intro h; exact .inl ⟨(Option.some.inj h).symm, h1⟩
    · rintro (⟨rfl, _⟩ | ⟨_, h⟩)
      · rfl
      · exact absurd h h2
  · rw [if_neg h1]
    by_cases h2 : t = "false".toList ∨ t = "f".toList ∨ t = "0".toList
    · rw [if_pos h2]
      constructor
      · intro h; exact .inr ⟨(Option.some.inj h).symm, h2⟩
      · rintro (⟨_, h⟩ | ⟨rfl, _⟩)
        · exact absurd h h1
        · rfl
    · rw [if_neg h2]
      constructor
      · intro h; cases h
      · rintro (⟨_, h⟩ | ⟨_, h⟩)
        · exact absurd h h1
        · exact absurd h h2

theorem parseOption_ok {D : Type} (valid : List String) (n : Bool) (s : Text) (v : Val D) :
    parseOption valid n s = .ok v ↔ (v = .null ∧ n = true ∧ Clean s "none".toList)
      ∨ ∃ o ∈ valid, v = .text o.toList ∧ Clean s o.toList ∧ o.toList ≠ "none".toList := by
  simp only [parseOption]
  cases hb : bare true s with
  | none =>
    have hc : Clean s "none".toList := (bare_none true s).1 hb
    simp only [null_ok]
    constructor
    · rintro ⟨h1, h2⟩; exact .inl ⟨h1, h2, hc⟩
    · rintro (⟨h1, h2, _⟩ | ⟨o, _, _, h3, h4⟩)
      · exact ⟨h1, h2⟩
      · exact absurd (((trimmed_iff _ _).1 h3).symm.trans ((trimmed_iff _ _).1 hc)) h4
  | some t =>
    obtain ⟨hc, hn⟩ := (bare_some true s t).1 hb
    simp only [List.contains_eq_mem, List.mem_map, decide_eq_true_eq]
    constructor
    · intro h
      by_cases hv : ∃ o ∈ valid, o.toList = t
      · rw [if_pos hv] at h
        obtain ⟨o, h1, h2⟩ := hv
        injection h with h
        subst h2
        exact .inr ⟨o, h1, h.symm, hc, hn⟩
      · rw [if_neg hv] at h; cases h
    · rintro (⟨_, _, h3⟩ | ⟨o, h1, h2, h3, h4⟩)
      · exact absurd (((trimmed_iff _ _).1 hc).symm.trans ((trimmed_iff _ _).1 h3)) hn
      · have : o.toList = t := ((trimmed_iff _ _).1 h3).symm.trans ((trimmed_iff _ _).1 hc)
        rw [if_pos ⟨o, h1, this⟩, h2, this]

theorem pieces_single (s : Text) : pieces s = [none] ↔ Clean s "none".toList := by
  constructor
  · intro h
    obtain ⟨h1, h2, h3⟩ := split_joined '|' s
    rw [pieces] at h
    cases hs : split '|' s with
    | nil => exact absurd hs h2
    | cons a l =>
      rw [hs] at h
      cases l with
      | cons => simp at h
      | nil =>
        simp only [List.map_cons, List.map_nil, List.cons.injEq, and_true] at h
        rw [hs] at h1
        have : a = s := h1
        subst this
        exact (bare_none true a).1 h
  · intro h
    have hs : '|' ∉ s := by
      intro hmem
      obtain ⟨⟨a, b, heq, ha, hb⟩, -⟩ := h
      have hm : '|' ∈ lower s := by
        have := List.mem_map_of_mem (f := Char.toLower) hmem
        exact this
      rw [heq] at hm
      simp only [List.mem_append] at hm
      rcases hm with (hm | hm) | hm
      · exact absurd (ha _ hm) (by decide)
      · exact absurd hm (by decide)
      · exact absurd (hb _ hm) (by decide)
    have : split '|' s = [s] := by
      have := split_unique '|' [s] (by simp) (by simpa using hs)
      exact this
    rw [pieces, this]
    simp only [List.map_cons, List.map_nil]
    rw [(bare_none true s).2 h]

theorem filterMap_id_mem (l : List (Option Text)) (x : Text) : x ∈ l.filterMap id ↔ some x ∈ l := by
  simp [List.mem_filterMap]

theorem region_ok {D : Type} (es : List (Text × List Int)) (v : Val D) (hne : es ≠ []) (h : region es = .ok v) :
    ∃ m y, v = .region m y ∧ (m.isSome = true ∨ y.isSome = true) := by
  rw [region] at h
  by_cases hall : es.all (fun e => e.1 == "month".toList || e.1 == "year".toList) = true
  · rw [if_pos hall] at h
    injection h with h
    refine ⟨_, _, h.symm, ?_⟩
    cases es with
    | nil => exact absurd rfl hne
    | cons e es =>
      rw [List.all_eq_true] at hall
      have := hall e (by simp)
      simp only [Bool.or_eq_true, beq_iff_eq] at this
      simp only [lastOf, Option.isSome_map, List.find?_isSome, List.mem_reverse]
      rcases this with h | h
      · exact .inl ⟨e, by simp, by simp [h]⟩
      · exact .inr ⟨e, by simp, by simp [h]⟩
  · rw [if_neg hall] at h; cases h

theorem parameter_unknown {D : Type} (w : World D) (formats : List String) (q : Query) (name : String) (s : Text)
    (h1 : name ≠ "dataset") (h2 : (table formats).lookup name = none) (h3 : datasetKeys.contains name = false) :
    parameterFromQuery w formats q name s = .error .keyError := by
  rw [parameterFromQuery, if_neg h1, h2]
  dsimp only
  rw [if_neg (by rw [h3]; simp)]

theorem firstValue_iff (q : Query) (hq : (q.map Prod.fst).Nodup) (key : String) (s : Text) :
    firstValue q key = some s ↔ ∃ others, (key, s :: others) ∈ q := by
  induction q with
  | nil => simp [firstValue]
  | cons e q ih =>
    obtain ⟨k, vs⟩ := e
    simp only [List.map_cons, List.nodup_cons] at hq
    have ih := ih hq.2
    unfold firstValue at ih ⊢
    rw [List.find?_cons]
    by_cases hk : k = key
    · subst hk
      simp only [BEq.rfl, Option.bind_some, List.mem_cons, Prod.mk.injEq, true_and]
      constructor
      · intro h
        cases vs with
        | nil => cases h
        | cons v vs => simp only [List.head?_cons, Option.some.injEq] at h; subst h; exact ⟨vs, Or.inl rfl⟩
      · rintro ⟨o, h | h⟩
        · rw [← h]; rfl
        · exact absurd (List.mem_map_of_mem h) hq.1
    · have : (k == key) = false := by simpa using hk
      simp only [this]
      rw [ih]
      simp only [List.mem_cons, Prod.mk.injEq, Ne.symm hk, false_and, false_or]

theorem optMapM_iff (ts : List Text) (is : List Int) : ts.mapM toInt = some is ↔
    ts.length = is.length ∧ ∀ (i : Nat) t k, ts[i]? = some t → is[i]? = some k → IntText t k := by
  induction ts generalizing is with
  | nil => cases is <;> simp [pure]
  | cons t ts ih =>
    rw [List.mapM_cons]
    cases ht : toInt t with
    | none =>
      simp only [bind, Option.bind_none, reduceCtorEq, false_iff]
      rintro ⟨hl, h⟩
      cases is with
      | nil => simp at hl
      | cons k is => rw [(toInt_iff t k).2 (h 0 t k rfl rfl)] at ht; cases ht
    | some j =>
      cases is with
      | nil =>
        cases hm : ts.mapM toInt <;> simp [bind, pure]
      | cons k is =>
        have hih := ih is
        have key : ((do let b ← some j; let bs ← ts.mapM toInt; pure (b :: bs)) : Option (List Int)) = some (k :: is)
            ↔ j = k ∧ ts.mapM toInt = some is := by
          cases hm : ts.mapM toInt <;> simp [bind, pure]
        rw [key, hih]
        constructor
        · rintro ⟨rfl, hl, h⟩
          refine ⟨by simp [hl], fun i a b ha hb => ?_⟩
          cases i with
          | zero => cases ha; cases hb; exact (toInt_iff t j).1 ht
          | succ i => exact h i a b ha hb
        · rintro ⟨hl, h⟩
          have := (toInt_iff t k).2 (h 0 t k rfl rfl)
          rw [ht] at this
          cases this
          exact ⟨rfl, by simpa using hl, fun i a b ha hb => h (i + 1) a b ha hb⟩

theorem regionEntry_iff (p : Text) (e : Text × List Int) : regionEntry p = .ok e ↔ RegionPiece p e := by
  unfold regionEntry RegionPiece
  obtain ⟨key, is⟩ := e
  constructor
  · intro h
    split at h
    · rename_i k v hs
      cases hm : (split '|' v).mapM toInt with
      | none => rw [hm] at h; cases h
      | some js =>
        rw [hm] at h
        have h := Except.ok.inj h
        cases h
        exact ⟨v, hs, (optMapM_iff _ _).1 hm⟩
    · cases h
  · rintro ⟨v, hs, h⟩
    simp only at hs h
    rw [hs]
    simp only [(optMapM_iff _ _).2 h]

theorem lastWith_iff (key : Text) (es : List (Text × List Int)) (v : Option (List Int)) : LastWith key es v ↔ lastOf key es = v := by
  unfold lastOf
  cases v with
  | none =>
    simp [LastWith, Option.map_eq_none_iff]
  | some v =>
    simp only [LastWith, Option.map_eq_some_iff, List.find?_eq_some_iff_append]
    constructor
    · rintro ⟨b, a, rfl, h⟩
      refine ⟨(key, v), ⟨by simp, a.reverse, b.reverse, by simp, ?_⟩, rfl⟩
      intro e he
      simpa using h e (by simpa using he)
    · rintro ⟨⟨k, v'⟩, ⟨hk, a, b, hab, h⟩, rfl⟩
      have hk : k = key := by simpa using hk
      subst hk
      refine ⟨b.reverse, a.reverse, ?_, ?_⟩
      · have := congrArg List.reverse hab
        simpa using this
      · intro e he
        simpa using h e (by simpa using he)

end Ocgis.Props
