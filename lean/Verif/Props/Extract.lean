import Verif.Proofs.Extract
/-!
# C108: taking variables and grids out of their collection
-/
namespace Ocgis.Props
open Ocgis.Collection Ocgis.Spec Ocgis.Extract
open Ocgis.Proofs.Extract

/-- Temperature over time and space, time with bounds, a coordinate system, a longitude with bounds and a latitude. -/
def exColl : Coll where
  dims := [("time", 3), ("x", 2), ("y", 4), ("bnds", 2), ("spare", 9)]
  vars := [("tas", ⟨"tas", ["time", "y", "x"], [3, 4, 2], none⟩), ("time", ⟨"time", ["time"], [3], some "time_bounds"⟩),
    ("time_bounds", ⟨"time_bounds", ["time", "bnds"], [3, 2], none⟩), ("crs", ⟨"crs", [], [], none⟩),
    ("lon", ⟨"lon", ["x"], [2], some "lon_bounds"⟩), ("lon_bounds", ⟨"lon_bounds", ["x", "bnds"], [2, 2], none⟩),
    ("lat", ⟨"lat", ["y"], [4], none⟩)]
  tags := [("data_variables", ["tas"])]

theorem exColl_consistent : Consistent exColl := by
  constructor
  · decide
  · decide
  · intro k v hm; simp [exColl] at hm; rcases hm with ⟨rfl, rfl⟩ | ⟨rfl, rfl⟩ | ⟨rfl, rfl⟩ | ⟨rfl, rfl⟩ | ⟨rfl, rfl⟩ | ⟨rfl, rfl⟩ | ⟨rfl, rfl⟩ <;> rfl
  · intro k v hm; simp [exColl] at hm; rcases hm with ⟨rfl, rfl⟩ | ⟨rfl, rfl⟩ | ⟨rfl, rfl⟩ | ⟨rfl, rfl⟩ | ⟨rfl, rfl⟩ | ⟨rfl, rfl⟩ | ⟨rfl, rfl⟩ <;> decide
  · intro k v hm i d n e1 e2
    simp [exColl] at hm
    rcases hm with ⟨rfl, rfl⟩ | ⟨rfl, rfl⟩ | ⟨rfl, rfl⟩ | ⟨rfl, rfl⟩ | ⟨rfl, rfl⟩ | ⟨rfl, rfl⟩ | ⟨rfl, rfl⟩ <;>
      (rcases i with _ | _ | _ | i <;> simp at e1 e2 <;> subst e1 <;> subst e2 <;> decide)
  · intro t ns hm
    simp [exColl] at hm
    obtain ⟨rfl, rfl⟩ := hm
    decide

/-! ## The source -/

/-- C108: unless it is asked to, an extraction never changes the collection taken from, whether it succeeds or not. -/
theorem C108_source (c : Coll) (crs : Option String) (name : String) (coords : List String) (kb : Bool) :
    (extract c name kb false).1 = c ∧ (spatialExtract c crs name kb false).1 = c ∧ (gridExtract c coords false).1 = c := by
  have h1 : (extract c name kb false).1 = c := by
    unfold extract
    cases Dict.get? c.vars name with
    | none => rfl
    | some v => simp only; cases keepNames c name v kb <;> rfl
  refine ⟨h1, ?_, ?_⟩
  · unfold spatialExtract
    cases hcrs : crsOf c crs with
    | error e => rfl
    | ok o =>
      cases o with
      | none => exact h1
      | some s =>
        simp only
        cases he : extract c name kb false with
        | mk c' r =>
          rw [he] at h1
          cases r with
          | error e => exact h1
          | ok r =>
            simp only
            cases hadd : addOrphan r s false with
            | mk r' o => cases o <;> exact h1
  · unfold gridExtract
    cases memberNames c coords with
    | error e => rfl
    | ok ms =>
      simp only
      cases removeEach false c ((c.vars.map (·.2.name)).filter fun n => !ms.contains n) with
      | mk r o => cases o <;> rfl

/-! ## Variables -/

/-- C108: a variable of a consistent collection can be extracted; the new collection has exactly the variable, its bounds if they are
wanted and there, and the dimensions of these, in the order of the old one. Apart from the tags it is consistent. -/
theorem C108_extract_partial (c : Coll) (name : String) (v : CVar) (kb : Bool) (h : Consistent c) (hv : (name, v) ∈ c.vars)
    (hb : kb = true → BoundsThere c v) :
    ∃ r, extract c name kb false = (c, .ok r) ∧ TakenOut c r (fun k => k = name ∨ kb = true ∧ v.bounds = some k) ∧ InOrderOf c r ∧
      ConsistentButTags r := by
  refine ⟨takenColl c name v kb, extract_eq c h name v hv kb hb, takenColl_taken c name v kb, takenColl_order c name v kb, ?_⟩
  exact order_consistent h (takenColl_taken c name v kb) (takenColl_order c name v kb)

example : ∃ v, ("time", v) ∈ exColl.vars ∧ BoundsThere exColl v ∧ v.bounds = some "time_bounds" := by
  refine ⟨⟨"time", ["time"], [3], some "time_bounds"⟩, by decide, ?_, rfl⟩
  intro b hb; injection hb with hb; subst hb; decide

example : extract exColl "time" true false = (exColl, .ok ⟨[("time", 3), ("bnds", 2)], [("time", ⟨"time", ["time"], [3], some "time_bounds"⟩),
    ("time_bounds", ⟨"time_bounds", ["time", "bnds"], [3, 2], none⟩)], [("data_variables", ["tas"])]⟩) := by decide

/-- C108: to extract from what was extracted changes nothing. -/
theorem C108_again (c r : Coll) (name : String) (v : CVar) (kb : Bool) (h : Consistent c) (hv : (name, v) ∈ c.vars)
    (hb : kb = true → BoundsThere c v) (hr : (extract c name kb false).2 = .ok r) (ht : r.tags = []) :
    extract r name kb false = (r, .ok r) := by
  rw [extract_eq c h name v hv kb hb] at hr
  injection hr with hr
  have hT := takenColl_taken c name v kb
  have hO := takenColl_order c name v kb
  have hC := order_consistent h hT hO
  rw [hr] at hT hO hC
  have hC' : Consistent r := by
    have : { r with tags := [] } = r := by cases r; simp only at ht; subst ht; rfl
    rw [ConsistentButTags, this] at hC
    exact hC
  have hv' : (name, v) ∈ r.vars := (hT.vars name v).2 ⟨hv, .inl rfl⟩
  have hb' : kb = true → BoundsThere r v := by
    intro hk b hvb
    obtain ⟨⟨b', bv⟩, hm, e⟩ := List.mem_map.1 (hb hk b hvb)
    simp only at e; subst e
    exact List.mem_map.2 ⟨(b', bv), (hT.vars b' bv).2 ⟨hm, .inr ⟨hk, hvb⟩⟩, rfl⟩
  rw [extract_eq r hC' name v hv' kb hb']
  congr 2
  have hm : ∀ k, (takenNames name v kb).contains k = true ↔ (k = name ∨ kb = true ∧ v.bounds = some k) := by
    intro k; cases kb <;> simp [takenNames]
  have e1 : (takenColl r name v kb).vars = r.vars := by
    refine List.filter_eq_self.2 ?_
    rintro ⟨k, u⟩ hk
    exact (hm k).2 ((hT.vars k u).1 hk).2
  have e2 : (takenColl r name v kb).dims = r.dims := by
    refine List.filter_eq_self.2 ?_
    rintro ⟨d, n⟩ hd
    obtain ⟨_, k, u, a, b, e⟩ := (hT.dims d n).1 hd
    rw [List.any_eq_true]
    exact ⟨(k, u), (hT.vars k u).2 ⟨a, b⟩, by rw [Bool.and_eq_true]; exact ⟨(hm k).2 b, by simpa using e⟩⟩
  have e3 : (takenColl r name v kb).tags = r.tags := rfl
  generalize takenColl r name v kb = q at e1 e2 e3
  cases q; cases r
  simp only at e1 e2 e3
  subst e1; subst e2; subst e3; rfl

example : (extract { exColl with tags := [] } "time" true false).2.toOption.map (·.tags) = some [] := by decide

/-- C108: with a clean break, a variable without bounds is afterwards in the new collection, with exactly its dimensions, and nothing
else is; the old collection has all the other variables, no longer has the dimensions that only it had, and is consistent. -/
theorem C108_clean_partial (c : Coll) (name : String) (v : CVar) (kb : Bool) (h : Consistent c) (hv : (name, v) ∈ c.vars) (hb : v.bounds = none) :
    ∃ c' r, extract c name kb true = (c', .ok r) ∧ TakenOut c r (· = name) ∧ InOrderOf c r ∧ ConsistentButTags r ∧
      LeftOver c c' (· = name) ∧ InOrderOf c c' ∧ Consistent c' := by
  have hT : TakenOut c (takenColl c name v kb) (· = name) := by
    have := takenColl_taken c name v kb
    simpa [hb] using this
  refine ⟨_, _, extract_clean c h name v hv hb kb, hT, takenColl_order c name v kb, order_consistent h hT (takenColl_order c name v kb),
    leftOver_one c h name v hv, inOrder_trans (inOrder_drop c name) (inOrder_orphan _ _),
    removeOrphaned_consistent _ _ (dropName_consistent _ _ h)⟩

example : ∃ v, ("lat", v) ∈ exColl.vars ∧ v.bounds = none := ⟨⟨"lat", ["y"], [4], none⟩, by decide, rfl⟩
example : (extract { exColl with vars := Dict.erase exColl.vars "tas", tags := [] } "lat" true true).1.dims = [("time", 3), ("x", 2), ("bnds", 2), ("spare", 9)] := by decide

/-- C108 (what fails): a clean break with a variable that has bounds never succeeds with the bounds kept: it ends with a `KeyError`
after the variable and its bounds have been taken out of the collection. -/
theorem C108_clean_bounds_never (c : Coll) (name b : String) (v : CVar) (h : Consistent c) (hv : (name, v) ∈ c.vars) (hb : v.bounds = some b)
    (hbm : b ∈ c.vars.map (·.1)) :
    ∃ c', extract c name true true = (c', .error .keyError) ∧ LeftOver c c' (fun k => k = name ∨ k = b) := by
  obtain ⟨⟨b', bv⟩, hm, e⟩ := List.mem_map.1 hbm
  simp only at e; subst e
  have hbt : true = true → BoundsThere c v := by intro _ x e; rw [hb] at e; injection e with e; subst e; exact hbm
  have hl := leftOver_two c h name v hv b' bv hm
  refine ⟨_, ?_, hl⟩
  simp only [extract, get?_of_mem h.varKeys hv, keepNames_eq c h name v true hbt, if_true]
  have ht : takenNames name v true = [name, b'] := by simp [takenNames, hb]
  rw [ht, removeEach, removeVariable_bounds c h name v hv b' bv hb hm]
  simp only [removeEach]
  generalize removeOrphaned (dropName (dropName c name) b') (v.dims ++ bv.dims) = q at hl
  have hg : Dict.get? q.vars b' = none := by
    rw [Dict.get?_none]
    intro hx
    obtain ⟨⟨k, u⟩, hku, e⟩ := List.mem_map.1 hx
    simp only at e; subst e
    exact ((hl.vars k u).1 hku).2 (.inr rfl)
  simp [removeVariable, hg]

example : ∃ v, ("time", v) ∈ exColl.vars ∧ v.bounds = some "time_bounds" ∧ "time_bounds" ∈ exColl.vars.map (·.1) :=
  ⟨⟨"time", ["time"], [3], some "time_bounds"⟩, by decide, rfl, by decide⟩

theorem C108_clean_counterexample : (extract exColl "time" true true).2 = .error .keyError ∧
    (extract exColl "time" true true).1.vars.map (·.1) = ["tas", "crs", "lon", "lon_bounds", "lat"] := by decide

/-- C108 (what fails): with a clean break and without bounds, the bounds are taken out of the old collection as well and are not in the
new one. -/
theorem C108_bounds_lost_counterexample : ∃ c' r, extract exColl "lon" false true = (c', .ok r) ∧ c'.vars.map (·.1) = ["tas", "time", "time_bounds", "crs", "lat"] ∧
    r.vars.map (·.1) = ["lon"] := by
  refine ⟨_, _, rfl, ?_, ?_⟩ <;> decide

/-- C108 (what fails): a variable extracted without its bounds still names them, and asking for them fails. -/
theorem C108_dangling_never (c r : Coll) (name b : String) (v : CVar) (h : Consistent c) (hv : (name, v) ∈ c.vars) (hb : v.bounds = some b)
    (hn : b ≠ name) (hr : (extract c name false false).2 = .ok r) : (name, v) ∈ r.vars ∧ boundsOf r v true = .error .keyError := by
  rw [extract_eq c h name v hv false (fun e => by cases e)] at hr
  injection hr with hr
  have hT := takenColl_taken c name v false
  rw [hr] at hT
  refine ⟨(hT.vars name v).2 ⟨hv, .inl rfl⟩, ?_⟩
  have hg : Dict.get? r.vars b = none := by
    rw [Dict.get?_none]
    intro hx
    obtain ⟨⟨k, u⟩, hku, e⟩ := List.mem_map.1 hx
    simp only at e; subst e
    rcases ((hT.vars k u).1 hku).2 with e | ⟨e, _⟩
    · exact hn e
    · cases e
  simp [boundsOf, hb, hg]

example : ∃ r, (extract exColl "time" false false).2 = .ok r ∧ r.vars.map (·.1) = ["time"] := ⟨_, rfl, by decide⟩

/-- C108 (what fails): the tags of the new collection name variables that are not in it. -/
theorem C108_tags_counterexample : ∃ r, (extract exColl "lat" true false).2 = .ok r ∧ ¬Consistent r ∧ Consistent exColl := by
  refine ⟨_, rfl, ?_, exColl_consistent⟩
  intro hc
  have := (hc.tagged "data_variables" ["tas"] (by decide)).2 "tas" (by decide)
  revert this
  decide

/-! ## Spatial variables -/

/-- C108: the coordinate system goes with a spatial variable: the new collection has exactly the variable, its bounds if wanted and
there, and the coordinate system. -/
theorem C108_spatial_partial (c : Coll) (name s : String) (v sv : CVar) (kb : Bool) (h : Consistent c) (hv : (name, v) ∈ c.vars)
    (hb : kb = true → BoundsThere c v) (hs : (s, sv) ∈ c.vars) (hd : sv.dims = []) (h1 : s ≠ name) (h2 : v.bounds ≠ some s) :
    ∃ r, spatialExtract c (some s) name kb false = (c, .ok r) ∧
      TakenOut c r (fun k => k = name ∨ k = s ∨ kb = true ∧ v.bounds = some k) ∧ ConsistentButTags r := by
  have hT := takenColl_taken c name v kb
  have hO := takenColl_order c name v kb
  have hC := order_consistent h hT hO
  have he := extract_eq c h name v hv kb hb
  generalize takenColl c name v kb = q at hT hO hC he
  have hns := h.named s sv hs
  have hnot : Dict.has q.vars s = false := by
    cases hh : Dict.has q.vars s with
    | false => rfl
    | true =>
      obtain ⟨⟨k, u⟩, hku, e⟩ := List.mem_map.1 ((Dict.has_iff _ _).1 hh)
      simp only at e; subst e
      rcases ((hT.vars k u).1 hku).2 with e | ⟨_, e⟩
      · exact absurd e h1
      · exact absurd e h2
  have hset : Dict.set q.vars s sv = q.vars ++ [(s, sv)] := by simp [Dict.set, hnot]
  have hT' : TakenOut c { q with vars := q.vars ++ [(s, sv)] } (fun k => k = name ∨ k = s ∨ kb = true ∧ v.bounds = some k) := by
    constructor
    · intro k u
      simp only [List.mem_append, List.mem_singleton, Prod.mk.injEq, hT.vars]
      constructor
      · rintro (⟨a, b | b⟩ | ⟨rfl, rfl⟩)
        · exact ⟨a, .inl b⟩
        · exact ⟨a, .inr (.inr b)⟩
        · exact ⟨hs, .inr (.inl rfl)⟩
      · rintro ⟨a, b | b | b⟩
        · exact .inl ⟨a, .inl b⟩
        · subst b; exact .inr ⟨rfl, Dict.mem_unique h.varKeys a hs⟩
        · exact .inl ⟨a, .inr b⟩
    · intro d n
      simp only [hT.dims]
      refine and_congr Iff.rfl ⟨?_, ?_⟩
      · rintro ⟨k, u, a, b | b, e⟩
        · exact ⟨k, u, a, .inl b, e⟩
        · exact ⟨k, u, a, .inr (.inr b), e⟩
      · rintro ⟨k, u, a, b | b | b, e⟩
        · exact ⟨k, u, a, .inl b, e⟩
        · subst b; rw [Dict.mem_unique h.varKeys a hs, hd] at e; simp at e
        · exact ⟨k, u, a, .inr b, e⟩
  refine ⟨{ q with vars := q.vars ++ [(s, sv)] }, ?_, hT', takenOut_consistent h hT' ?_ hC.dimKeys⟩
  · simp only [spatialExtract, crsOf, get?_of_mem h.varKeys hs, he, addOrphan, hns, hnot, hset]
    rfl
  · rw [List.map_append, List.nodup_append]
    refine ⟨hC.varKeys, by simp, ?_⟩
    intro a ha b hb' e
    simp at hb'
    rw [hb'] at e
    subst e
    rw [(Dict.has_iff q.vars _).2 ha] at hnot
    cases hnot

example : (spatialExtract exColl (some "crs") "lat" true false).2.toOption.map (fun r => (r.vars.map (·.1), r.dims)) =
    some (["lat", "crs"], [("y", 4)]) := by decide

/-! ## Grids -/

/-- C108: a grid is extracted with exactly its coordinate and mask variables and their bounds, in the old order, and without the
dimensions only other variables had; the new collection is consistent. The old one stays as it is or, with a clean break, keeps
exactly the other variables and loses the dimensions only members had, and is consistent. -/
theorem C108_grid_partial (c : Coll) (coords : List String) (cb : Bool) (h : Consistent c) (hc : ∀ n ∈ coords, n ∈ c.vars.map (·.1))
    (hb : ∀ n v, n ∈ coords → (n, v) ∈ c.vars → BoundsThere c v) :
    ∃ c' r, gridExtract c coords cb = (c', .ok r) ∧ LeftOver c r (fun k => ¬GridMember c coords k) ∧ Consistent r ∧ InOrderOf c r ∧
      (cb = false → c' = c) ∧ (cb = true → LeftOver c c' (GridMember c coords) ∧ Consistent c' ∧ InOrderOf c c') :=
  gridExtract_eq c h coords hc hb cb

example : ∃ c' r, gridExtract exColl ["lon", "lat"] true = (c', .ok r) ∧ r.vars.map (·.1) = ["lon", "lon_bounds", "lat"] ∧
    r.dims = [("x", 2), ("y", 4), ("bnds", 2), ("spare", 9)] ∧ c'.vars.map (·.1) = ["tas", "time", "time_bounds", "crs"] ∧
    c'.dims = exColl.dims := by
  refine ⟨_, _, rfl, ?_⟩; decide

/-- C108 (what fails): the coordinate system does not go with a grid. -/
theorem C108_grid_crs_never (c c' r : Coll) (coords : List String) (s : String) (cb : Bool) (h : Consistent c) (hc : ∀ n ∈ coords, n ∈ c.vars.map (·.1))
    (hb : ∀ n v, n ∈ coords → (n, v) ∈ c.vars → BoundsThere c v) (hs : ¬GridMember c coords s) (he : gridExtract c coords cb = (c', .ok r)) :
    crsOf r (some s) = .error .variableNotInCollection := by
  obtain ⟨c2, r2, e, hl, _⟩ := gridExtract_eq c h coords hc hb cb
  rw [e] at he
  injection he with _ he
  injection he with he
  subst he
  have hg : Dict.get? r2.vars s = none := by
    rw [Dict.get?_none]
    intro hx
    obtain ⟨⟨k, u⟩, hku, e⟩ := List.mem_map.1 hx
    simp only at e; subst e
    exact ((hl.vars k u).1 hku).2 hs
  simp [crsOf, hg]

example : ¬GridMember exColl ["lon", "lat"] "crs" := by
  rintro (h | ⟨n, v, hn, hv, hb⟩)
  · simp at h
  · simp [exColl] at hv
    rcases hv with ⟨rfl, rfl⟩ | ⟨rfl, rfl⟩ | ⟨rfl, rfl⟩ | ⟨rfl, rfl⟩ | ⟨rfl, rfl⟩ | ⟨rfl, rfl⟩ | ⟨rfl, rfl⟩ <;> simp at hb

end Ocgis.Props
