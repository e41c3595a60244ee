import Verif.Proofs.Redistribute
/-!
# C98: redistributing variables by source index, and scattering collections
-/
namespace Ocgis.Props
open Spec Mpi Redistribute

/-- C98, partial: the source indices of all ranks, in rank order, are shared out evenly again, and nothing is lost, duplicated or
reordered.  On every rank that gets a part, the dimension holds exactly that part (with its bounds), the other dimensions are as
before, every variable with a source and with the dimension reads the elements of its source at the part, and every other variable keeps
its value.  A rank that gets no part is empty.  Missing: a single source index, variables without source, variables without the
dimension on emptied ranks, and communicators of fewer processes than were started (see the counterexamples). -/
theorem C98_redistribute_partial {α : Type} (dn target : String) (passed : List (Option Dim)) (ranks : List (Held α))
    (hsize : 2 ≤ ranks.length)
    (hlive : ∃ h ∈ ranks, ∃ v ∈ h.items, v.name = target ∧ h.isEmpty v = false)
    (hsrc : ∀ d, some d ∈ passed → d.srcIdx ≠ none)
    (hn : 2 ≤ (allSources passed).length) :
    ∃ ranks' parts, redistribute ranks.length dn target passed ranks = .ok ranks' ∧ ranks'.length = ranks.length ∧
      EvenParts ranks.length (allSources passed) parts ∧
      ∀ (r : Nat) h h' p, ranks[r]? = some h → ranks'[r]? = some h' → parts[r]? = some p →
        (p ≠ [] → ∃ d, Named h'.dims dn d ∧ sources d = p ∧ d.len = p.length ∧ d.isEmpty = false ∧ d.dist = true ∧
            d.boundsLocal = ((startOf parts r : Int), (startOf parts r : Int) + p.length) ∧
            d.boundsGlobal = (0, ((allSources passed).length : Int))) ∧
        (∀ m d, m ≠ dn → (Named h'.dims m d ↔ Named h.dims m d)) ∧
        h'.items.length = h.items.length ∧
        ∀ (i : Nat) v v', h.items[i]? = some v → h'.items[i]? = some v' →
          v'.name = v.name ∧ v'.dims = v.dims ∧ v'.file = v.file ∧
          (p ≠ [] → dn ∈ v.dims → (∀ m d, m ∈ v.dims → m ≠ dn → Named h.dims m d → d.isEmpty = false) →
            ∀ file, v.file = some file → (allSources passed).Pairwise (· < ·) →
              (∀ x ∈ allSources passed, 0 ≤ x ∧ x < (file.length : Int)) →
              h'.read dn v' = .ok (some ((fileElements file p).map some)) ∧ (fileElements file p).length = p.length) ∧
          (p ≠ [] → dn ∉ v.dims → v.name ≠ target → v'.value = v.value ∧ v'.loaded = v.loaded) ∧
          (p = [] → (∃ w ∈ h.items, dn ∈ w.dims) → h'.isEmpty v' = true ∧ h'.read dn v' = .ok none) := by
  obtain ⟨hef, hm, hmn⟩ := effective_two ranks.length (allSources passed).length hsize hn
  have hne : allSources passed ≠ [] := by intro h; rw [h] at hn; simp at hn
  obtain ⟨f, hf1, hf2⟩ := newDims_ok ranks.length dn (allSources passed).length
  rw [hef] at hf2
  have heven := shares_even (allSources passed) ranks.length hsize hn
  have hsc := scatter_shares dn (allSources passed) ranks.length hsize hn f hf2
    ⟨dn, some (allSources passed).length, some (allSources passed).length, false, false, none, none, none⟩ rfl
  generalize hM : min ranks.length ((allSources passed).length / 2) = m at *
  generalize hI : allSources passed = idx at *
  have hminm : min idx.length m = m := by omega
  have hfin : ∀ (r : Nat) (h : Held α), ∃ h', finish dn target (f r) (if r < m then some ⟨f r, share idx idx.length m r⟩ else none) h = .ok h' := by
    intro r h
    by_cases hr : r < m
    · rw [if_pos hr]
      obtain ⟨-, -, -, h4, -⟩ := (hf2 r).live (by omega)
      have hl := share_length idx m r hmn hr
      have hmo := splitPoint_mono idx.length m r
      unfold finish Dim.setSrcIdx
      simp only
      rw [if_neg (by rw [h4, hl]; omega)]
      exact ⟨_, rfl⟩
    · rw [if_neg hr]; exact ⟨_, rfl⟩
  have hgf : ∀ (r : Nat) d, ((List.range ranks.length).map f)[r]? = some d → d = f r ∧ r < ranks.length := by
    intro r d h
    rw [List.getElem?_map] at h
    cases hr : (List.range ranks.length)[r]? with
    | none => rw [hr] at h; cases h
    | some k =>
      rw [hr] at h
      rw [List.getElem?_eq_some_iff] at hr
      obtain ⟨hlt, hr⟩ := hr
      rw [List.getElem_range] at hr
      subst hr
      exact ⟨by simpa using h.symm, by simpa using hlt⟩
  have hgs : ∀ (r : Nat) s, ((List.range ranks.length).map fun r =>
      if r < m then (some ⟨f r, share idx idx.length m r⟩ : Option (Var Int)) else none)[r]? = some s →
      s = if r < m then some ⟨f r, share idx idx.length m r⟩ else none := by
    intro r s h
    rw [List.getElem?_map] at h
    cases hr : (List.range ranks.length)[r]? with
    | none => rw [hr] at h; cases h
    | some k =>
      rw [hr] at h
      rw [List.getElem?_eq_some_iff] at hr
      obtain ⟨_, hr⟩ := hr
      rw [List.getElem_range] at hr
      subst hr
      simpa using h.symm
  obtain ⟨ranks', g1, g2, g3⟩ := finishAll_ok dn target ((List.range ranks.length).map f)
    ((List.range ranks.length).map fun r => if r < m then some ⟨f r, share idx idx.length m r⟩ else none) ranks (by simp) (by simp)
    (by
      intro r d s h hd hs _
      rw [(hgf r d hd).1, hgs r s hs]
      exact hfin r h)
  refine ⟨ranks', (List.range ranks.length).map (share idx idx.length m), ?_, g2, heven, ?_⟩
  · unfold redistribute
    rw [if_neg (by omega)]
    have hl : ranks.any (live target) = true := by
      rw [List.any_eq_true]
      obtain ⟨h, hh, v, hv, hvn, hve⟩ := hlive
      refine ⟨h, hh, ?_⟩
      unfold live
      rw [List.any_eq_true]
      exact ⟨v, List.mem_filter.2 ⟨hv, by simpa using hvn⟩, by simp [hve]⟩
    rw [hl]
    have hgi := globalIndex_ok passed hsrc (by rw [hI]; exact hne)
    rw [hI] at hgi
    simp only [Bool.not_true, Bool.false_eq_true, if_false, hgi, hf1, hsc]
    rw [if_neg (by simp)]
    exact g1
  · intro r h h' p hr hr' hp
    have hrlt : r < ranks.length := by
      rw [List.getElem?_eq_some_iff] at hr; exact hr.1
    have hp' : p = share idx idx.length m r := by
      rw [List.getElem?_map, List.getElem?_range hrlt] at hp
      simpa using hp.symm
    have hstep := g3 r (f r) (if r < m then some ⟨f r, share idx idx.length m r⟩ else none) h h'
      (by rw [List.getElem?_map, List.getElem?_range hrlt]; rfl) (by rw [List.getElem?_map, List.getElem?_range hrlt]; rfl) hr hr'
    by_cases hrm : r < m
    · rw [if_pos hrm] at hstep
      obtain ⟨k1, k2, k3, k4, -⟩ := (hf2 r).live (by omega)
      have hl := share_length idx m r hmn hrm
      have hmo := splitPoint_lt idx.length m r (by omega)
      have hpne : p ≠ [] := by
        intro he; rw [← hp', he] at hl; simp at hl; omega
      have hflen : (f r).len = p.length := by rw [k4, hp', hl]; omega
      unfold finish Dim.setSrcIdx at hstep
      simp only at hstep
      rw [if_neg (by rw [← hp']; omega)] at hstep
      simp only [Except.ok.injEq] at hstep
      rw [← hp'] at hstep
      have hname : (f r).name = dn := (hf2 r).name
      have hd' : h'.dims = setDim h.dims { f r with srcIdx := some (.fancy p) } := by rw [← hstep]; rfl
      have hnd : Named h'.dims dn { f r with srcIdx := some (.fancy p) } := by
        unfold Named
        rw [hd']
        have := find_setDim h.dims { f r with srcIdx := some (.fancy p) }
        rw [show ({ f r with srcIdx := some (.fancy p) } : Dim).name = dn from hname] at this
        exact this
      have hother : ∀ m' : String, m' ≠ dn → h'.dims.find? (·.name = m') = h.dims.find? (·.name = m') := by
        intro m' hm'
        rw [hd']
        exact find_setDim_other _ _ _ (by rw [show ({ f r with srcIdx := some (.fancy p) } : Dim).name = dn from hname]; exact hm')
      refine ⟨fun _ => ⟨_, hnd, rfl, hflen, k1, (hf2 r).dist, ?_, ?_⟩, ?_, by rw [← hstep]; simp [Held.clearEmpty], ?_⟩
      · show (f r).boundsLocal = _
        have hst : startOf ((List.range ranks.length).map (share idx idx.length m)) r = splitPoint idx.length m r := by
          have hind : ∀ k, k ≤ m → startOf ((List.range ranks.length).map (share idx idx.length m)) k = splitPoint idx.length m k := by
            intro k hk
            unfold startOf
            rw [← List.map_take, List.take_range, Nat.min_eq_left (by omega)]
            induction k with
            | zero => simp [splitPoint_zero]
            | succ k ih =>
              rw [List.range_succ, List.map_append, List.map_append, List.sum_append, ih (by omega)]
              have := share_length idx m k hmn (by omega)
              have := splitPoint_mono idx.length m k
              simp only [List.map_cons, List.map_nil, List.sum_cons, List.sum_nil]
              omega
          exact hind r (by omega)
        rw [k2, hst, hp', hl]
        congr 1
        omega
      · exact k3
      · intro m' d hm'
        unfold Named
        rw [hother m' hm']
      · intro i v v' hv hv'
        have hv'' : v' = if v.dims.contains dn then ({ (if v.name = target then v.reset else v) with empty := none } : Item α).reset
            else { (if v.name = target then v.reset else v) with empty := none } := by
          have : h'.items[i]? = (h.items[i]?).map fun v => if v.dims.contains dn then
              ({ (if v.name = target then v.reset else v) with empty := none } : Item α).reset
              else { (if v.name = target then v.reset else v) with empty := none } := by
            rw [← hstep]
            simp only [Held.clearEmpty, List.map_map, List.getElem?_map]
            congr 1
            funext w
            simp only [Function.comp]
            have : (if w.name = target then w.reset else w).dims = w.dims := by split <;> rfl
            rw [this]
          rw [this, hv] at hv'
          simpa using hv'.symm
        have hfld : v'.name = v.name ∧ v'.dims = v.dims ∧ v'.file = v.file := by
          rw [hv'']
          split <;> split <;> exact ⟨rfl, rfl, rfl⟩
        refine ⟨hfld.1, hfld.2.1, hfld.2.2, ?_, ?_, fun he => absurd he hpne⟩
        · intro _ hdn hothers file hfile hinc hin
          have hc : v.dims.contains dn = true := by simpa using hdn
          rw [hc, if_pos rfl] at hv''
          have hval : v'.value = none ∧ v'.loaded = false ∧ v'.empty = none := by rw [hv'']; exact ⟨rfl, rfl, rfl⟩
          have hem : h'.isEmpty v' = false := by
            unfold Held.isEmpty
            rw [hval.2.2]
            simp only [Bool.and_eq_false_iff]
            right
            rw [List.any_eq_false]
            intro d hd
            unfold Held.dimsOf at hd
            rw [List.mem_filterMap] at hd
            obtain ⟨m', hm', hd⟩ := hd
            rw [hfld.2.1] at hm'
            by_cases hmd : m' = dn
            · subst hmd
              unfold Named at hnd
              rw [hnd] at hd
              simp only [Option.some.injEq] at hd
              rw [← hd]; simpa using k1
            · rw [hother m' hmd] at hd
              simpa using hothers m' d hm' hmd hd
          have hsub : p.Sublist idx := by
            rw [hp']; unfold share; rw [if_pos hrm]
            exact (List.take_sublist _ _).trans (List.drop_sublist _ _)
          have hpin : ∀ x ∈ p, 0 ≤ x ∧ x < (file.length : Int) := fun x hx => hin x (hsub.subset hx)
          obtain ⟨fi, q1, q2⟩ := Ocgis.Props.read_axis { f r with srcIdx := some (.fancy p) } file.length
            { src := by simp
              aligned := by show ((p.length : Int) = _); exact hflen.symm
              pos := by
                show 0 < (f r).len
                rw [hflen]
                have := List.length_pos_iff.2 hpne
                omega
              increasing := hinc.sublist hsub
              within := hpin }
          refine ⟨?_, ?_⟩
          · unfold Held.read
            rw [hval.1, hfld.2.2, hfile]
            simp only [hem, hval.2.1, Bool.or_self, Bool.false_eq_true, if_false]
            unfold Held.fromFile
            rw [hfld.2.1, hc, if_pos rfl]
            unfold Named at hnd
            rw [hnd]
            simp only [q1, q2]
            unfold fileElements
            rw [List.filterMap_map]
            rfl
          · exact fileElements_length file p hpin
        · intro _ hdn hnt
          have hc : v.dims.contains dn = false := by simpa using hdn
          rw [hc, if_neg (by simp), if_neg hnt] at hv''
          rw [hv'']; exact ⟨rfl, rfl⟩
    · rw [if_neg hrm] at hstep
      have hpe : p = [] := by rw [hp']; unfold share; rw [if_neg hrm]
      unfold finish at hstep
      simp only [Except.ok.injEq] at hstep
      have hdims : h'.dims = h.dims := by rw [← hstep]; split <;> rfl
      refine ⟨fun he => absurd hpe he, by intro m' d _; rw [hdims], ?_, ?_⟩
      · rw [← hstep]; split <;> simp [Held.convertToEmpty, Held.clearEmpty]
      · intro i v v' hv hv'
        by_cases hany : (h.convertToEmpty.clearEmpty.items.any (·.dims.contains dn)) = true
        · rw [if_pos hany] at hstep
          have hv'' : v' = { v with value := none, empty := some true } := by
            rw [← hstep] at hv'
            simp only [Held.convertToEmpty, Held.clearEmpty, List.map_map, List.getElem?_map, hv, Option.map_some,
              Option.some.injEq, Function.comp] at hv'
            exact hv'.symm
          subst hv''
          refine ⟨rfl, rfl, rfl, fun he => absurd hpe he, fun he => absurd hpe he, fun _ _ => ⟨rfl, ?_⟩⟩
          unfold Held.read Held.allocated
          simp only [Held.isEmpty]
          cases hf : v.file <;> simp
        · rw [if_neg hany] at hstep
          have hv'' : v' = { v with value := none, empty := none } := by
            rw [← hstep] at hv'
            simp only [Held.convertToEmpty, Held.clearEmpty, List.map_map, List.getElem?_map, hv, Option.map_some,
              Option.some.injEq, Function.comp] at hv'
            exact hv'.symm
          subst hv''
          refine ⟨rfl, rfl, rfl, fun he => absurd hpe he, fun he => absurd hpe he, ?_⟩
          rintro _ ⟨w, hw, hwd⟩
          exfalso; apply hany
          rw [List.any_eq_true]
          refine ⟨{ w with value := none, empty := none }, ?_, by simpa using hwd⟩
          simp only [Held.convertToEmpty, Held.clearEmpty, List.map_map, List.mem_map, Function.comp]
          exact ⟨w, hw, rfl⟩

/-! ### A case -/

/-- The face dimension on a rank with the given source indices. -/
def faceDim (xs : List Int) : Dim := ⟨"face", some xs.length, some xs.length, true, false, none, none, some (.fancy xs)⟩

/-- Four ranks with ten elements in the file, of which the ranks have kept some; `area` is read from the file, `edge` lies in memory and
does not have the dimension. -/
def faceRank (xs : List Int) : Held Nat :=
  ⟨[faceDim xs, ⟨"two", some 2, some 2, false, false, none, none, none⟩],
    [{ name := "area", dims := ["face"], file := some [10, 11, 12, 13, 14, 15, 16, 17, 18, 19] },
     { name := "edge", dims := ["two"], value := some [7, 8] }]⟩

def faceRanks : List (Held Nat) := [faceRank [1, 2, 4], faceRank [5], faceRank [8], faceRank [9]]

def facePassed : List (Option Dim) := [some (faceDim [1, 2, 4]), some (faceDim [5]), none, some (faceDim [9])]

/-- The hypotheses hold for it. -/
example : 2 ≤ faceRanks.length ∧ (∃ h ∈ faceRanks, ∃ v ∈ h.items, v.name = "area" ∧ h.isEmpty v = false) ∧
    (∀ d, some d ∈ facePassed → d.srcIdx ≠ none) ∧ 2 ≤ (allSources facePassed).length ∧
    (allSources facePassed).Pairwise (· < ·) ∧ ∀ x ∈ allSources facePassed, 0 ≤ x ∧ x < (10 : Int) := by
  refine ⟨by decide, ⟨faceRank [1, 2, 4], by simp [faceRanks], _, List.mem_cons_self, rfl, rfl⟩, ?_, by decide, by decide, by decide⟩
  intro d hd
  simp only [facePassed, List.mem_cons, Option.some.injEq, reduceCtorEq, List.not_mem_nil, or_false, false_or] at hd
  rcases hd with rfl | rfl | rfl <;> simp [faceDim]

/-- Two of the four ranks have the elements afterwards. -/
example : (match redistribute 4 "face" "area" facePassed faceRanks with
    | .ok rs => rs.map fun h => h.items.map fun v => h.read "face" v
    | .error _ => []) =
    [[.ok (some [some 11, some 12, some 14]), .ok (some [some 7, some 8])],
     [.ok (some [some 15, some 19]), .ok (some [some 7, some 8])],
     [.ok none, .ok none], [.ok none, .ok none]] := by decide +kernel

/-- C98: one process keeps what it has; a redistribution of a variable that is empty everywhere is refused; so is one with a dimension
without source index. -/
theorem C98_refused {α : Type} (started : Nat) (dn target : String) (passed : List (Option Dim)) (ranks : List (Held α)) :
    (ranks.length = 1 → redistribute started dn target passed ranks = .ok ranks) ∧
    (ranks.length ≠ 1 → (∀ h ∈ ranks, ∀ v ∈ h.items, v.name = target → h.isEmpty v = true) →
      redistribute started dn target passed ranks = .error .valueError) ∧
    (ranks.length ≠ 1 → (∃ h ∈ ranks, ∃ v ∈ h.items, v.name = target ∧ h.isEmpty v = false) →
      (∃ d, some d ∈ passed ∧ d.srcIdx = none) → redistribute started dn target passed ranks = .error .attributeError) := by
  refine ⟨fun h => by unfold redistribute; rw [if_pos h], ?_, ?_⟩
  · intro h hall
    unfold redistribute
    rw [if_neg h, if_pos]
    rw [Bool.not_eq_true', List.any_eq_false]
    intro x hx
    unfold live
    rw [Bool.not_eq_true, List.any_eq_false]
    intro v hv
    rw [List.mem_filter] at hv
    simp [hall x hx v hv.1 (by simpa using hv.2)]
  · rintro h ⟨x, hx, v, hv, hvn, hve⟩ ⟨d, hd, hdn⟩
    unfold redistribute
    have hl : ranks.any (live target) = true := by
      rw [List.any_eq_true]
      refine ⟨x, hx, ?_⟩
      unfold live
      rw [List.any_eq_true]
      exact ⟨v, List.mem_filter.2 ⟨hv, by simpa using hvn⟩, by simp [hve]⟩
    rw [if_neg h, hl]
    have hg : globalIndex passed = .error .attributeError := by
      unfold globalIndex
      have hmem : d ∈ passed.filterMap id := List.mem_filterMap.2 ⟨some d, hd, rfl⟩
      cases hc : (passed.filterMap id).mapM fancyIndex with
      | ok es =>
        obtain ⟨hlen, hall⟩ := (resMapM_ok_iff _ _ _).1 hc
        obtain ⟨k, hk, hkd⟩ := List.mem_iff_getElem.1 hmem
        have := hall k d (es[k]'(by omega)) (by rw [List.getElem?_eq_getElem hk, hkd]) (by rw [List.getElem?_eq_getElem])
        unfold fancyIndex at this
        rw [hdn] at this
        cases this
      | error e =>
        obtain ⟨k, a, _, ha, _⟩ := (resMapM_error_iff _ _ _).1 hc
        unfold fancyIndex at ha
        cases hs : a.srcIdx with
        | none => rw [hs] at ha; simp only [Except.error.injEq] at ha; rw [← ha]
        | some s => rw [hs] at ha; cases s <;> cases ha
    simp [hg]

/-- All variables of all ranks, as read after a redistribution. -/
def readAfter (dn : String) (r : Res (List (Held Nat))) : List (List (Res (Option (List (Option Nat))))) :=
  match r with
  | .ok rs => rs.map fun h => h.items.map fun v => h.read dn v
  | .error _ => []

/-- C98 is false of the code: if one element is left among several processes, it is lost. -/
theorem C98_single_counterexample :
    readAfter "face" (redistribute 2 "face" "area" [some (faceDim [3]), none] [faceRank [3], faceRank [8]]) =
      [[.ok none, .ok none], [.ok none, .ok none]] := by decide +kernel

/-- C98 is false of the code: the values of a variable without source that has the dimension are lost. -/
theorem C98_memory_counterexample :
    let rank : Held Nat := { faceRank [1, 2] with items := (faceRank [1, 2]).items ++ [{ name := "mine", dims := ["face"], value := some [5, 6] }] }
    readAfter "face" (redistribute 2 "face" "area" [some (faceDim [1, 2]), some (faceDim [5, 6])] [rank, faceRank [5, 6]]) =
      [[.ok (some [some 11, some 12]), .ok (some [some 7, some 8]), .ok (some [none, none])],
       [.ok (some [some 15, some 16]), .ok (some [some 7, some 8])]] := by decide +kernel

/-- C98 is false of the code: on a process that gets no elements, variables without the dimension lose their values; when it gets
elements again, they are read as fill values. -/
theorem C98_other_variables_counterexample :
    ∃ rs, redistribute 2 "face" "area" [some (faceDim [1]), some (faceDim [5])] [faceRank [1], faceRank [5]] = .ok rs ∧
      readAfter "face" (.ok rs) = [[.ok (some [some 11, some 15]), .ok (some [some 7, some 8])], [.ok none, .ok none]] ∧
      readAfter "face" (redistribute 2 "face" "area" [some (faceDim [1, 5, 6, 7]), none] rs) =
        [[.ok (some [some 11, some 15]), .ok (some [some 7, some 8])],
         [.ok (some [some 16, some 17]), .ok (some [none, none])]] := by
  refine ⟨_, rfl, ?_, ?_⟩ <;> decide +kernel

/-- C98 is false of the code: a process that gets no elements keeps its old dimension with its source indices, so that giving every
process's dimension to a second redistribution brings elements twice. -/
theorem C98_stale_dimension_counterexample :
    ∃ rs, redistribute 2 "face" "area" [some (faceDim [1]), some (faceDim [5])] [faceRank [1], faceRank [5]] = .ok rs ∧
      rs.map (fun h => (h.dims.find? (·.name = "face")).map (·.srcIdx)) = [some (some (.fancy [1, 5])), some (some (.fancy [5]))] ∧
      allSources (rs.map fun h => h.dims.find? (·.name = "face")) = [1, 5, 5] := by
  refine ⟨_, rfl, ?_, ?_⟩ <;> decide +kernel

/-- C98 is false of the code: an empty dimension given for a process without elements, instead of none, is an error. -/
theorem C98_empty_dimension_counterexample :
    ∃ d, (faceDim [3]).convertToEmpty = .ok d ∧
      redistribute 2 "face" "area" [some (faceDim [1, 2]), some d] [faceRank [1, 2], faceRank [3]] = .error .attributeError :=
  ⟨_, rfl, rfl⟩

/-- C98 is false of the code: in a communicator of two of three started processes the redistribution is refused. -/
theorem C98_communicator_counterexample :
    redistribute 3 "face" "area" [some (faceDim [1, 2]), some (faceDim [5, 6])] [faceRank [1, 2], faceRank [5, 6]] = .error .valueError := rfl

/-! ### Scattering a collection -/

/-- C98: scattering a collection that has a distributed variable is refused. -/
theorem C98_scatter_refused {α : Type} (name : String) (dims : List Dim) (vars : List (String × List String × List α)) (groups : List (Coll α))
    (dests : List Dim) (x : Dim) (v : String × List String × List α) (hx : x ∈ dims) (hd : x.dist = true) (hv : v ∈ vars) (hn : x.name ∈ v.2.1) :
    scatterColl dests (.mk name dims vars groups) = .error .valueError := by
  unfold scatterColl
  have : (Coll.mk name dims vars groups).vars.any (Coll.mk name dims vars groups).varDist = true := by
    rw [List.any_eq_true]
    refine ⟨v, hv, ?_⟩
    unfold Coll.varDist
    rw [List.any_eq_true]
    exact ⟨x, hx, by simpa [hd] using hn⟩
  simp only [this, if_true]

example : scatterColl [faceDim [1], faceDim [2]] (.mk "c" [{ faceDim [1, 2] with dist := true }] [("area", ["face"], [7, 8])] []) = .error .valueError :=
  C98_scatter_refused "c" _ _ _ _ { faceDim [1, 2] with dist := true } ("area", ["face"], [7, 8]) (by simp) rfl (by simp) (by decide)

/-- C98, partial: scattering a collection without groups, none of whose variables is distributed, to the processes of a distribution
succeeds; every process gets every variable.  A variable with the distributed dimension is cut into parts that joined in rank
order are the variable; the others are complete on every process that has a part; the remaining processes get no values.
Missing: groups, and collections without dimensions (see the counterexamples). -/
theorem C98_scatter_partial {α : Type} (name : String) (dims : List Dim) (vars : List (String × List String × List α)) (size minE : Nat) (d : Dim)
    (dests : List Dim) (hsize : 2 ≤ size) (hmin : 1 ≤ minE) (hd : d.dist = true) (he : d.isEmpty = false) (hal : Aligned d)
    (hlen : (minE : Int) ≤ d.len) (hdests : (List.range size).mapM (fun rank => updateDistributed size minE rank d) = .ok dests)
    (hvars : vars ≠ []) (hdims : dims ≠ []) (hnew : ∀ x ∈ dims, x.dist = true → ∀ v ∈ vars, x.name ∉ v.2.1)
    (hfit : ∀ v ∈ vars, d.name ∈ v.2.1 → (v.2.2.length : Int) = d.len) :
    ∃ parts, scatterColl dests (.mk name dims vars []) = .ok parts ∧ parts.length = size ∧ dests.length = size ∧
      (∃ dest ∈ dests, dest.isEmpty = false) ∧
      (∀ part ∈ parts, part.map (·.1) = vars.map (·.1)) ∧
      (∀ (j : Nat) v, vars[j]? = some v → d.name ∈ v.2.1 →
        (parts.flatMap fun part => ((part[j]?.bind (·.2)).getD [])) = v.2.2) ∧
      ∀ (r : Nat) dest part (j : Nat) v x, dests[r]? = some dest → parts[r]? = some part → vars[j]? = some v → part[j]? = some x →
        (dest.isEmpty = true → x.2 = none) ∧
        (dest.isEmpty = false → d.name ∉ v.2.1 → x.2 = some v.2.2) ∧
        (dest.isEmpty = false → d.name ∈ v.2.1 → ∃ ys, x.2 = some ys ∧ (ys.length : Int) = dest.len) := by
  obtain ⟨n, hn⟩ : ∃ n : Nat, d.len = n := ⟨d.len.toNat, by omega⟩
  generalize hm : effectiveSize size minE n = m
  have hm1 : m ≤ size ∧ m ≤ n ∧ 0 < m := by
    rw [← hm]
    unfold effectiveSize
    have h1 : n / minE ≤ n := Nat.div_le_self _ _
    have h2 : 1 ≤ n / minE := (Nat.le_div_iff_mul_le (by omega)).2 (by omega)
    simp only
    generalize n / minE = q at *
    split <;> split <;> omega
  have hex : ∀ rank, ∃ r, updateDistributed size minE rank d = .ok r ∧ Piece d n m rank r := by
    intro rank; rw [← hm]; exact updateDistributed_ok size minE rank d n hn hd he hal
  obtain ⟨f, hf⟩ := Classical.axiomOfChoice hex
  have hds : dests = (List.range size).map f := by
    have := mapM_ok (List.range size) (fun rank => updateDistributed size minE rank d) f (fun r _ => (hf r).1)
    rw [this] at hdests
    injection hdests with h
    exact h.symm
  subst hds
  have hslice : ∀ (xs : List α) r, (xs.length : Int) = d.len → r < m →
      (PySlice.mk (some (f r).boundsLocal.1) (some (f r).boundsLocal.2)).get xs = share xs xs.length m r := by
    intro xs r hxs hr
    obtain ⟨_, h2, _⟩ := (hf r).2.live (by omega)
    have hxn : xs.length = n := by omega
    have hlt := splitPoint_le n m r (by omega)
    have hmo := splitPoint_mono n m r
    rw [h2, PySlice.get_inside _ _ _ (by omega) (by omega) (by omega)]
    unfold share
    rw [if_pos hr, hxn]
    congr 2
    omega
  have hcd : (Coll.mk name dims vars []).vars.any (Coll.mk name dims vars []).varDist = false := by
    rw [List.any_eq_false]
    intro v hv
    unfold Coll.varDist
    rw [Bool.not_eq_true, List.any_eq_false]
    intro x hx
    cases hxd : x.dist with
    | false => simp
    | true => simpa using hnew x hx hxd v hv
  have hlive0 : (f 0).isEmpty = false := ((hf 0).2.live (by omega)).1
  refine ⟨((List.range size).map f).map (Coll.mk name dims vars []).part, ?_, by simp, by simp,
    ⟨f 0, List.mem_map.2 ⟨0, by simp; omega, rfl⟩, hlive0⟩, ?_, ?_, ?_⟩
  · unfold scatterColl
    simp only [hcd, Bool.false_eq_true, if_false]
    have : (Coll.mk name dims vars []).scatterFirst ((List.range size).map f) =
        .ok (((List.range size).map f).map (Coll.mk name dims vars []).part) := by
      unfold Coll.scatterFirst
      cases vars with
      | nil => exact absurd rfl hvars
      | cons v vs =>
        simp only [Coll.vars]
        rw [if_neg (by simp; omega), if_neg]
        cases dims with
        | nil => exact absurd rfl hdims
        | cons x xs => simp [Coll.dims]
    rw [this]
    simp [scatterChildren]
  · intro part hp
    obtain ⟨dest, _, rfl⟩ := List.mem_map.1 hp
    simp [Coll.part, Coll.vars]
  · intro j v hv hdn
    have hvm : v ∈ vars := List.mem_of_getElem? hv
    have hfl := hfit v hvm hdn
    have e : ∀ r, (((Coll.mk name dims vars []).part (f r))[j]?.bind (·.2)).getD [] = share v.2.2 v.2.2.length m r := by
      intro r
      unfold Coll.part
      rw [List.getElem?_map]
      simp only [Coll.vars, hv, Option.map_some, Option.bind_some]
      by_cases hr : r < m
      · rw [((hf r).2.live (by omega)).1, (hf r).2.name]
        have : v.2.1.contains d.name = true := by simpa using hdn
        simp only [Bool.false_eq_true, if_false, this, if_true, Option.getD_some]
        exact hslice v.2.2 r hfl hr
      · rw [((hf r).2.empty (by omega)).1]
        unfold share
        rw [if_neg hr]; simp
    rw [List.flatMap_map, List.flatMap_map]
    have : (List.range size).flatMap (fun r => (((Coll.mk name dims vars []).part (f r))[j]?.bind (·.2)).getD []) =
        ((List.range size).map (share v.2.2 v.2.2.length m)).flatten := by
      unfold List.flatMap
      congr 1
      apply List.map_congr_left
      intro r _
      exact e r
    rw [this]
    exact shares_flatten v.2.2 size m hm1.2.2 hm1.1 (by omega)
  · intro r dest part j v x hr hp hv hx
    rw [List.getElem?_map, hr] at hp
    simp only [Option.map_some, Option.some.injEq] at hp
    subst hp
    unfold Coll.part at hx
    rw [List.getElem?_map] at hx
    simp only [Coll.vars, hv, Option.map_some, Option.some.injEq] at hx
    have hdr : dest = f r ∧ r < size := by
      rw [List.getElem?_map] at hr
      cases hk : (List.range size)[r]? with
      | none => rw [hk] at hr; cases hr
      | some k =>
        rw [hk] at hr
        rw [List.getElem?_eq_some_iff] at hk
        obtain ⟨hlt, hk⟩ := hk
        rw [List.getElem_range] at hk
        subst hk
        exact ⟨by simpa using hr.symm, by simpa using hlt⟩
    obtain ⟨rfl, hrs⟩ := hdr
    refine ⟨?_, ?_, ?_⟩
    · intro h; rw [← hx, h]; rfl
    · intro h hdn
      have : v.2.1.contains (f r).name = false := by rw [(hf r).2.name]; simpa using hdn
      rw [← hx, h, this]; rfl
    · intro h hdn
      have hc : v.2.1.contains (f r).name = true := by rw [(hf r).2.name]; simpa using hdn
      have hrm : r < m := by
        by_cases hr : r < m
        · exact hr
        · rw [((hf r).2.empty (by omega)).1] at h; cases h
      have hfl := hfit v (List.mem_of_getElem? hv) hdn
      refine ⟨_, by rw [← hx, h, hc]; rfl, ?_⟩
      rw [hslice v.2.2 r hfl hrm, share_length v.2.2 m r (by omega) hrm]
      obtain ⟨_, _, _, h4, _⟩ := (hf r).2.live (by omega)
      have hmo := splitPoint_mono n m r
      have : v.2.2.length = n := by omega
      rw [h4, this]
      omega

/-- A collection of three variables. -/
def exScatter : List (String × List String × List Nat) :=
  [("five", ["five"], [0, 1, 2, 3, 4]), ("crs", [], []), ("ten", ["ten"], [10, 11, 12])]

/-- The hypotheses hold for it. -/
example : ∃ dests, (List.range 3).mapM (fun rank => updateDistributed 3 2 rank ⟨"five", some 5, some 5, true, false, none, none, none⟩) = .ok dests ∧
    (∀ v ∈ exScatter, "five" ∈ v.2.1 → (v.2.2.length : Int) = 5) ∧
    scatterColl dests (.mk "c" [⟨"five", some 5, some 5, false, false, none, none, none⟩, ⟨"ten", some 3, some 3, false, false, none, none, none⟩] exScatter []) =
      .ok [[("five", some [0, 1, 2]), ("crs", some []), ("ten", some [10, 11, 12])], [("five", some [3, 4]), ("crs", some []), ("ten", some [10, 11, 12])],
        [("five", none), ("crs", none), ("ten", none)]] :=
  ⟨_, rfl, by decide, rfl⟩

/-- C98 is false of the code: a collection with groups cannot be scattered, whatever the groups are. -/
theorem C98_groups_counterexample {α : Type} (name : String) (dims : List Dim) (vars : List (String × List String × List α)) (c : Coll α)
    (cs : List (Coll α)) (dests : List Dim) : ∃ e, scatterColl dests (.mk name dims vars (c :: cs)) = .error e := by
  unfold scatterColl
  simp only
  split
  · exact ⟨_, rfl⟩
  · split
    · exact ⟨_, rfl⟩
    · unfold scatterChildren
      cases scatterColl dests c with
      | error e => exact ⟨e, rfl⟩
      | ok p => exact ⟨_, rfl⟩

/-- C98 is false of the code: a collection of scalars only, and one without variables, cannot be scattered to several processes. -/
theorem C98_scalars_counterexample :
    ∃ dests, (List.range 2).mapM (fun rank => updateDistributed 2 2 rank ⟨"five", some 5, some 5, true, false, none, none, none⟩) = .ok dests ∧
      scatterColl dests (.mk "c" [] [("crs", [], [1])] []) = .error .dimensionsRequired ∧
      scatterColl (α := Nat) dests (.mk "c" [⟨"five", some 5, some 5, false, false, none, none, none⟩] [] []) = .error .attributeError :=
  ⟨_, rfl, rfl, rfl⟩

end Ocgis.Props
