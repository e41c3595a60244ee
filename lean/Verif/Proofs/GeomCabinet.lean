import Verif.Spec.GeomCabinet
/-!
# Lemmas
-/
namespace Ocgis.Props
open Ocgis Ocgis.Records Ocgis.Cabinet Ocgis.Spec

theorem dictSet_mem (props : List (String × Val)) (hn : (props.map Prod.fst).Nodup) (name : String) (x : Val) :
    (∀ k v, k ≠ name → ((k, v) ∈ dictSet props name x ↔ (k, v) ∈ props)) ∧
    (∀ v, (name, v) ∈ dictSet props name x ↔ v = x) ∧ ((dictSet props name x).map Prod.fst).Nodup := by
  unfold dictSet
  split
  · rename_i hs
    refine ⟨?_, ?_, ?_⟩
    · intro k v hk
      constructor
      · intro h
        obtain ⟨⟨a, b⟩, hm, he⟩ := List.mem_map.1 h
        simp only at he
        split at he
        · injection he with h1 h2; exact absurd h1.symm hk
        · rw [← he]; exact hm
      · intro h
        refine List.mem_map.2 ⟨(k, v), h, ?_⟩
        simp [hk]
    · intro v
      constructor
      · intro h
        obtain ⟨⟨a, b⟩, hm, he⟩ := List.mem_map.1 h
        simp only at he
        split at he
        · injection he with h1 h2; exact h2.symm
        · rename_i hne
          injection he with h1 h2
          exact absurd h1 hne
      · rintro rfl
        have : name ∈ props.map Prod.fst := by
          apply Classical.byContradiction
          intro h
          rw [(lookup_none props name).2 h] at hs
          cases hs
        obtain ⟨⟨a, b⟩, hm, rfl⟩ := List.mem_map.1 this
        exact List.mem_map.2 ⟨(a, b), hm, by simp⟩
    · rw [List.map_map]
      have : (Prod.fst ∘ fun p : String × Val => if p.1 = name then (name, x) else p) = Prod.fst := by
        funext p
        simp only [Function.comp]
        split
        · rename_i h; exact h.symm
        · rfl
      rw [this]
      exact hn
  · rename_i hs
    have hno : name ∉ props.map Prod.fst := by
      rw [← lookup_none]
      cases h : props.lookup name with
      | none => rfl
      | some _ => rw [h] at hs; exact absurd rfl hs
    refine ⟨?_, ?_, ?_⟩
    · intro k v hk
      simp [hk]
    · intro v
      simp only [List.mem_append, List.mem_singleton, Prod.mk.injEq, true_and, or_iff_right_iff_imp]
      intro h
      exact absurd (List.mem_map.2 ⟨_, h, rfl⟩) hno
    · rw [List.map_append, List.nodup_append]
      refine ⟨hn, by simp, ?_⟩
      intro a ha b hb
      simp at hb
      rintro rfl
      exact hno (hb ▸ ha)

theorem toRecord_good {G : Type} (src : Source G) (q : Query G) (hg : GoodSource src q) (f : Feature G) (hf : f ∈ src.features)
    (add : Bool) (hadd : add = true ↔ idName q ∉ src.fields.map Prod.fst) :
    ∃ r, toRecord (idName q) add f = .ok r ∧ RecordOf (idName q) f r := by
  have hn : (f.props.map Prod.fst).Nodup := by rw [hg.names f hf]; exact hg.nodup
  unfold toRecord
  split
  · rename_i h
    have hno := hadd.1 h
    rw [← hg.names f hf, ← lookup_none] at hno
    obtain ⟨d1, d2, d3⟩ := dictSet_mem f.props hn (idName q) (.int f.fid)
    refine ⟨_, rfl, rfl, d1, ?_, d3⟩
    intro v
    rw [d2]
    simp [idOf, hno]
  · rename_i h
    have hin : idName q ∈ f.props.map Prod.fst := by
      rw [hg.names f hf]
      exact Decidable.not_not.1 (fun hno => h (hadd.2 hno))
    obtain ⟨⟨k, v⟩, hm, hk⟩ := List.mem_map.1 hin
    simp only at hk
    subst hk
    obtain ⟨i, rfl⟩ := hg.ints f hf v hm
    have hl := (mem_lookup _ hn _ _).2 hm
    obtain ⟨d1, d2, d3⟩ := dictSet_mem f.props hn (idName q) (.int i)
    rw [hl]
    refine ⟨_, rfl, rfl, d1, ?_, d3⟩
    intro x
    rw [d2]
    simp [idOf, hl]

theorem uidFromProps_good {G : Type} (src : Source G) (q : Query G) (hg : GoodSource src q) (f : Feature G)
    (hf : f ∈ src.features) :
    ∃ add, uidFromProps f.props q.uid = .ok (idName q, add) ∧ (add = true ↔ idName q ∉ src.fields.map Prod.fst) := by
  have hn : (f.props.map Prod.fst).Nodup := by rw [hg.names f hf]; exact hg.nodup
  have hkey : ∀ v, f.props.lookup (idName q) = some v → ∃ i, v = .int i := fun v hv =>
    hg.ints f hf v ((mem_lookup _ hn _ _).1 hv)
  unfold uidFromProps
  cases hu : q.uid with
  | some u =>
    have hid : idName q = u := by simp [idName, hu]
    rw [hid] at hkey ⊢
    have hin := hg.exists_ u hu
    simp only
    cases hl : f.props.lookup u with
    | none => exact absurd (hg.names f hf ▸ hin) ((lookup_none _ _).1 hl)
    | some v =>
      obtain ⟨i, rfl⟩ := hkey v hl
      exact ⟨false, rfl, by simp only [Bool.false_eq_true, false_iff, Decidable.not_not]; exact hin⟩
  | none =>
    have hid : idName q = defaultUid := by simp [idName, hu, defaultUid]
    rw [hid] at hkey ⊢
    simp only
    cases hl : f.props.lookup defaultUid with
    | none =>
      refine ⟨true, rfl, ?_⟩
      rw [lookup_none, hg.names f hf] at hl
      simp only [true_iff]
      exact hl
    | some v =>
      obtain ⟨i, rfl⟩ := hkey v hl
      refine ⟨false, rfl, ?_⟩
      simp only [Bool.false_eq_true, false_iff, Decidable.not_not]
      rw [← hg.names f hf]
      exact List.mem_map.2 ⟨_, (mem_lookup _ hn _ _).1 hl, rfl⟩

theorem iterGeoms_selected {G : Type} (src : Source G) (q : Query G) (hg : GoodSource src q) (wanted : List (Feature G))
    (hsub : ∀ f ∈ wanted, f ∈ src.features) (hsel : selected src q = .ok wanted) :
    Yields (idName q) wanted (iterGeoms src q) := by
  unfold iterGeoms
  rw [hsel]
  cases wanted with
  | nil => exact ⟨fun _ => rfl, fun h => absurd rfl h⟩
  | cons f fs =>
    refine ⟨fun h => (by cases h), fun _ => ?_⟩
    obtain ⟨add, h1, h2⟩ := uidFromProps_good src q hg f (hsub f List.mem_cons_self)
    simp only [h1]
    have hmap : ∀ l : List (Feature G), (∀ f ∈ l, f ∈ src.features) → ∃ rs, l.mapM (toRecord (idName q) add) = .ok rs := by
      intro l
      induction l with
      | nil => intro _; exact ⟨[], rfl⟩
      | cons a l ih =>
        intro hl
        obtain ⟨r, hr, -⟩ := toRecord_good src q hg a (hl a List.mem_cons_self) add h2
        obtain ⟨rs, hrs⟩ := ih (fun x hx => hl x (List.mem_cons_of_mem _ hx))
        exact ⟨r :: rs, by rw [resMapM_cons, hr, hrs]⟩
    obtain ⟨rs, hrs⟩ := hmap (f :: fs) hsub
    rw [hrs]
    refine ⟨rs, rfl, ?_, ?_⟩
    · exact ((resMapM_ok_iff _ _ _).1 hrs).1.symm
    · intro i x r hx hr
      have := ((resMapM_ok_iff _ _ _).1 hrs).2 i x r hx hr
      obtain ⟨r', hr', hrec⟩ := toRecord_good src q hg x (hsub x (List.mem_of_getElem? hx)) add h2
      rw [this] at hr'
      injection hr' with hr'
      subst hr'
      exact hrec

theorem sqlIn_idOf {G : Type} (src : Source G) (q : Query G) (hg : GoodSource src q) (f : Feature G) (hf : f ∈ src.features)
    (hin : idName q ∈ src.fields.map Prod.fst) (ids : List Int) :
    sqlIn ids (f.props.lookup (idName q)) = ids.contains (idOf (idName q) f) := by
  have hn : (f.props.map Prod.fst).Nodup := by rw [hg.names f hf]; exact hg.nodup
  cases hl : f.props.lookup (idName q) with
  | none => exact absurd (hg.names f hf ▸ hin) ((lookup_none _ _).1 hl)
  | some v =>
    obtain ⟨i, rfl⟩ := hg.ints f hf v ((mem_lookup _ hn _ _).1 hl)
    simp [sqlIn, idOf, hl]

theorem walkFrom_eq {G : Type} (a : Int) (stop : Option Int) (ctr : Nat) (fs : List (Feature G))
    (hs : ∀ b, stop = some b → a ≤ b ∧ (ctr : Int) ≤ b) :
    walkFrom a stop ctr fs =
      match stop with
      | none => fs.drop (a - ctr).toNat
      | some b => (fs.take (b - ctr).toNat).drop (a - ctr).toNat := by
  induction fs generalizing ctr with
  | nil => cases stop <;> simp [walkFrom]
  | cons f fs ih =>
    rw [walkFrom]
    split
    · rename_i hlt
      rw [ih (ctr + 1) (fun b hb => ⟨(hs b hb).1, by have := (hs b hb).1; omega⟩)]
      cases stop with
      | none =>
        simp only
        have : (a - (ctr : Int)).toNat = (a - ((ctr + 1 : Nat) : Int)).toNat + 1 := by omega
        rw [this, List.drop_succ_cons]
      | some b =>
        simp only
        have h1 : (a - (ctr : Int)).toNat = (a - ((ctr + 1 : Nat) : Int)).toNat + 1 := by omega
        have h2 : (b - (ctr : Int)).toNat = (b - ((ctr + 1 : Nat) : Int)).toNat + 1 := by
          have := (hs b rfl).1; omega
        rw [h1, h2, List.take_succ_cons, List.drop_succ_cons]
    · rename_i hge
      have h0 : (a - (ctr : Int)).toNat = 0 := by omega
      split
      · rename_i he
        subst he
        simp [h0]
      · rename_i hne
        rw [ih (ctr + 1) (fun b hb => ⟨(hs b hb).1, by
          have := (hs b hb).2
          have : (ctr : Int) ≠ b := fun h => hne (by rw [hb, h])
          omega⟩)]
        cases stop with
        | none =>
          simp only
          have : (a - ((ctr + 1 : Nat) : Int)).toNat = 0 := by omega
          rw [h0, this]
          rfl
        | some b =>
          simp only
          have h1 : (a - ((ctr + 1 : Nat) : Int)).toNat = 0 := by omega
          have h2 : (b - (ctr : Int)).toNat = (b - ((ctr + 1 : Nat) : Int)).toNat + 1 := by
            have := (hs b rfl).2
            have : (ctr : Int) ≠ b := fun h => hne (by rw [h])
            omega
          rw [h0, h1, h2, List.take_succ_cons]
          rfl

theorem walkFrom_pySlice {G : Type} (a : Int) (stop : Option Int) (fs : List (Feature G)) (ha : 0 ≤ a)
    (hs : ∀ b, stop = some b → a ≤ b) : walkFrom a stop 0 fs = PySlice.get ⟨some a, stop⟩ fs := by
  rw [walkFrom_eq a stop 0 fs (fun b hb => ⟨hs b hb, by have := hs b hb; omega⟩)]
  unfold PySlice.get PySlice.lo PySlice.hi PySlice.clip
  have hna : ¬ a < 0 := by omega
  cases stop with
  | none =>
    simp only [if_neg hna, Int.natCast_zero, Int.sub_zero]
    rw [List.take_of_length_le (by rw [List.length_drop]; omega)]
    by_cases h : a.toNat ≤ fs.length
    · rw [Nat.min_eq_left h]
    · rw [Nat.min_eq_right (by omega), List.drop_of_length_le (by omega), List.drop_of_length_le (by omega)]
  | some b =>
    have hb := hs b rfl
    have hnb : ¬ b < 0 := by omega
    simp only [if_neg hna, if_neg hnb, Int.natCast_zero, Int.sub_zero]
    rw [List.drop_take]
    by_cases h : a.toNat ≤ fs.length
    · rw [Nat.min_eq_left h]
      by_cases h' : b.toNat ≤ fs.length
      · rw [Nat.min_eq_left h']
      · rw [Nat.min_eq_right (by omega), List.take_of_length_le (by rw [List.length_drop]; omega),
          List.take_of_length_le (by rw [List.length_drop]; omega)]
    · rw [Nat.min_eq_right (by omega), List.drop_of_length_le (by omega), List.drop_of_length_le (by omega)]
      simp

theorem find_fid {G : Type} (fs : List (Feature G)) (off : Nat) (hn : ∀ (i : Nat) f, fs[i]? = some f → f.fid = (off + i : Nat))
    (i : Nat) : fs.find? (fun f => decide (f.fid = ((off + i : Nat) : Int))) = fs[i]? := by
  induction fs generalizing off i with
  | nil => rfl
  | cons f fs ih =>
    rw [List.find?_cons]
    have h0 := hn 0 f rfl
    cases i with
    | zero => simp [h0]
    | succ i =>
      have : ¬ f.fid = ((off + (i + 1) : Nat) : Int) := by rw [h0]; omega
      simp only [this, decide_false, List.getElem?_cons_succ]
      rw [← ih (off + 1) (fun j g hg => by rw [hn (j + 1) g hg]; congr 1; omega) i]
      congr 2
      funext g
      congr 2
      have : off + (i + 1) = off + 1 + i := by omega
      rw [this]

theorem getByFid_ints {G : Type} (src : Source G) (hn : Numbered src) (xs : List Int)
    (hr : ∀ i ∈ xs, 0 ≤ i ∧ i < (src.features.length : Int)) :
    xs.mapM (getByFid src.features) = takeInts src.features xs := by
  unfold takeInts
  induction xs with
  | nil => rfl
  | cons x xs ih =>
    obtain ⟨h0, h1⟩ := hr x List.mem_cons_self
    have hx : x = ((0 + x.toNat : Nat) : Int) := by omega
    have hlt : x.toNat < src.features.length := by omega
    have hone : getByFid src.features x = .ok src.features[x.toNat] := by
      unfold getByFid
      rw [show (fun f : Feature G => decide (f.fid = x)) = fun f => decide (f.fid = ((0 + x.toNat : Nat) : Int)) by rw [← hx]]
      rw [find_fid src.features 0 (fun i f hf => by rw [hn i f hf]; congr 1; omega) x.toNat]
      rw [List.getElem?_eq_getElem hlt]
    rw [resMapM_cons, resMapM_cons, ih (fun i hi => hr i (List.mem_cons_of_mem _ hi)), hone]
    simp only [if_neg (show ¬ x < 0 by omega), List.getElem?_eq_getElem hlt]

end Ocgis.Props
