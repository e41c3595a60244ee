import Verif.Proofs.VarShape
/-!
# Single operations on variables: lemmas
-/
namespace Ocgis.Proofs.VarShape
open Ocgis.VarShape Ocgis.Spec
open Ocgis.Masks (allIdx setMaskByVariable MVar)

variable {α : Type}

/-! ## Growing unlimited dimensions -/

theorem grow_other (heap : List Dim) (ns rs : List Nat) (r : Nat) (h : r ∉ rs) : (grow heap ns rs)[r]? = heap[r]? := by
  induction ns generalizing heap rs with
  | nil => simp [grow]
  | cons n ns ih =>
    cases rs with
    | nil => simp [grow]
    | cons q rs =>
      simp only [grow]
      rw [ih _ rs (fun e => h (List.mem_cons_of_mem _ e)), List.getElem?_modify]
      have hq : ¬ q = r := fun e => h (by rw [e]; exact List.mem_cons_self)
      simp only [if_neg hq, Option.map_eq_map, Option.map_id']

/-- The dimension after a value of that length was set. -/
def grown (d : Dim) (n : Nat) : Dim := if d.size.isNone then { d with cur := some n } else d

theorem grown_name (d : Dim) (n : Nat) : (grown d n).name = d.name := by unfold grown; split <;> rfl

theorem grown_len (d : Dim) (n : Nat) (h : d.size = none ∨ n = d.len) : (grown d n).len = n := by
  unfold grown
  cases hs : d.size with
  | none => simp [Dim.len]
  | some m =>
    rcases h with h | h
    · rw [h] at hs; cases hs
    · simp [h]

theorem grow_get (heap : List Dim) (ns rs : List Nat) (ds : List Dim) (hnd : rs.Nodup) (hl : ns.length = rs.length)
    (h : List.Forall₂ (fun r d => heap[r]? = some d) rs ds) :
    List.Forall₂ (fun r d => (grow heap ns rs)[r]? = some d) rs (List.zipWith grown ds ns) := by
  induction ns generalizing heap rs ds with
  | nil => cases rs with
    | nil => cases h; exact .nil
    | cons r rs => simp at hl
  | cons n ns ih =>
    cases h with
    | nil => exact .nil
    | @cons r d rs ds h1 h2 =>
      rw [List.nodup_cons] at hnd
      simp only [grow, List.zipWith_cons_cons]
      refine .cons ?_ ?_
      · rw [grow_other _ _ _ _ hnd.1, List.getElem?_modify, h1]
        simp [grown]
      · refine ih _ rs ds hnd.2 (by simpa using hl) ?_
        refine List.Forall₂.imp ?_ (List.forall₂_iff_get.2 ?_ : List.Forall₂ (fun q d => heap[q]? = some d ∧ q ∈ rs) rs ds)
        · rintro q d ⟨g1, g2⟩
          have : ¬ r = q := fun e => hnd.1 (by rw [e]; exact g2)
          simp only [List.getElem?_modify, if_neg this, g1, Option.map_eq_map, Option.map_some]
        · rw [List.forall₂_iff_get] at h2
          exact ⟨h2.1, fun i h3 h4 => ⟨h2.2 i h3 h4, List.get_mem _ _⟩⟩

theorem sameShape_iff (w : World α) (ns rs : List Nat) (ds : List Dim) (h : List.Forall₂ (fun r d => w.heap[r]? = some d) rs ds) :
    sameShape w ns rs = true ↔ List.Forall₂ (fun n (d : Dim) => d.size = none ∨ n = d.len) ns ds := by
  induction h generalizing ns with
  | nil => cases ns with
    | nil => exact ⟨fun _ => .nil, fun _ => rfl⟩
    | cons n ns => exact ⟨fun h => by simp [sameShape] at h, fun h => by cases h⟩
  | @cons r d rs ds h1 _ ih =>
    cases ns with
    | nil => exact ⟨fun h => by simp [sameShape] at h, fun h => by cases h⟩
    | cons n ns =>
      simp only [sameShape, h1, Bool.and_eq_true, Bool.or_eq_true, Option.isNone_iff_eq_none, beq_iff_eq, ih]
      exact ⟨fun ⟨a, b⟩ => .cons a b, fun h => by cases h with | cons a b => exact ⟨a, b⟩⟩

theorem refs_nodup (w : World α) (hn : DimsNamed w) (v : Vr α) (rs : List Nat) (hr : w.refs v = some rs) (hd : (v.dims.getD []).Nodup) : rs.Nodup := by
  unfold World.refs Vr.names at hr
  generalize v.dims.getD [] = ns at hr hd
  have hname : ∀ n r, w.find v.coll n = some r → ∃ d, w.heap[r]? = some d ∧ d.name = n := by
    intro n r h
    obtain ⟨l, h1, h2⟩ := (find_iff w _ n r).1 h
    exact hn l (List.mem_of_getElem? h1) _ (mem_of_lookup l n r h2)
  induction ns generalizing rs with
  | nil => simp only [World.findAll, Option.some.injEq] at hr; subst hr; exact List.nodup_nil
  | cons n ns ih =>
    simp only [World.findAll] at hr
    rw [List.nodup_cons] at hd
    cases hf : w.find v.coll n with
    | none => simp [hf] at hr
    | some r =>
      cases hfa : w.findAll v.coll ns with
      | none => simp [hf, hfa] at hr
      | some qs =>
        simp only [hf, hfa, Option.some.injEq] at hr
        subst hr
        rw [List.nodup_cons]
        refine ⟨?_, ih qs hfa hd.2⟩
        intro hmem
        have hback : ∀ (ms : List String) (qs : List Nat), w.findAll v.coll ms = some qs → r ∈ qs → ∃ m ∈ ms, w.find v.coll m = some r := by
          intro ms
          induction ms with
          | nil => intro qs h hr; simp only [World.findAll, Option.some.injEq] at h; subst h; cases hr
          | cons m ms ih2 =>
            intro qs h hr
            simp only [World.findAll] at h
            cases g : w.find v.coll m with
            | none => simp [g] at h
            | some x =>
              cases g2 : w.findAll v.coll ms with
              | none => simp [g, g2] at h
              | some ys =>
                simp only [g, g2, Option.some.injEq] at h
                subst h
                rcases List.mem_cons.1 hr with rfl | hr
                · exact ⟨m, List.mem_cons_self, g⟩
                · obtain ⟨m', h1, h2⟩ := ih2 ys g2 hr
                  exact ⟨m', List.mem_cons_of_mem _ h1, h2⟩
        obtain ⟨m, hm, hfm⟩ := hback ns qs hfa hmem
        obtain ⟨d1, e1, e2⟩ := hname _ _ hf
        obtain ⟨d2, e3, e4⟩ := hname _ _ hfm
        rw [e1, Option.some.injEq] at e3
        subst e3
        rw [e2] at e4
        subst e4
        exact hd.1 hm

/-- The references of a variable are those it uses. -/
theorem uses_iff (w : World α) (v : Vr α) (rs : List Nat) (hr : w.refs v = some rs) (r : Nat) : r ∈ rs ↔ Uses w v r := by
  unfold World.refs Vr.names at hr
  unfold Uses
  generalize v.dims.getD [] = ns at hr
  induction ns generalizing rs with
  | nil => simp only [World.findAll, Option.some.injEq] at hr; subst hr; simp
  | cons n ns ih =>
    simp only [World.findAll] at hr
    cases hf : w.find v.coll n with
    | none => simp [hf] at hr
    | some q =>
      cases hfa : w.findAll v.coll ns with
      | none => simp [hf, hfa] at hr
      | some qs =>
        simp only [hf, hfa, Option.some.injEq] at hr
        subst hr
        rw [List.mem_cons, ih qs hfa]
        obtain ⟨l, h1, h2⟩ := (find_iff w _ n q).1 hf
        constructor
        · rintro (rfl | ⟨m, hm, c, g1, g2⟩)
          · exact ⟨n, List.mem_cons_self, l, h1, h2⟩
          · exact ⟨m, List.mem_cons_of_mem _ hm, c, g1, g2⟩
        · rintro ⟨m, hm, c, g1, g2⟩
          rcases List.mem_cons.1 hm with rfl | hm
          · rw [h1, Option.some.injEq] at g1
            subst g1
            rw [h2, Option.some.injEq] at g2
            exact Or.inl g2.symm
          · exact Or.inr ⟨m, hm, c, g1, g2⟩

/-- What `updateLengths` does, for any dimensions. -/
theorem updateLengths_any (w : World α) (hn : DimsNamed w) (v : Vr α) (hd : (v.dims.getD []).Nodup) (ds : List Dim) (hds : HasDims w v ds) (a : NArr α) :
    ∃ rs, w.refs v = some rs ∧ List.Forall₂ (fun r d => w.heap[r]? = some d) rs ds ∧
      ((List.Forall₂ (fun n (d : Dim) => d.size = none ∨ n = d.len) a.shape ds ∧
          updateLengths w (some a) (w.refs v) = ({ w with heap := grow w.heap a.shape rs }, none) ∧
          List.Forall₂ (fun r d => (grow w.heap a.shape rs)[r]? = some d) rs (List.zipWith grown ds a.shape) ∧
          (List.zipWith grown ds a.shape).map Dim.len = a.shape) ∨
        (¬ List.Forall₂ (fun n (d : Dim) => d.size = none ∨ n = d.len) a.shape ds ∧ updateLengths w (some a) (w.refs v) = (w, some .valueError))) := by
  obtain ⟨rs, hr, hf⟩ := (hasDims_iff w v ds).1 hds
  refine ⟨rs, hr, hf, ?_⟩
  by_cases hs : sameShape w a.shape rs = true
  · have hF := (sameShape_iff w a.shape rs ds hf).1 hs
    refine Or.inl ⟨hF, by simp only [updateLengths, hr, hs, if_true], ?_, ?_⟩
    · refine grow_get _ _ _ _ (refs_nodup w hn v rs hr hd) ?_ hf
      rw [hF.length_eq, hf.length_eq]
    · clear hs
      generalize a.shape = ns at hF
      clear hf hds
      induction hF with
      | nil => rfl
      | cons g _ ih => simp only [List.zipWith_cons_cons, List.map_cons, ih, grown_len _ _ g]
  · refine Or.inr ⟨fun hF => hs ((sameShape_iff w a.shape rs ds hf).2 hF), ?_⟩
    simp only [updateLengths, hr, if_neg hs]

theorem modify_set {β : Type} (l : List β) (i : Nat) (f : β → β) (u : β) (hu : l[i]? = some u) : l.modify i f = l.set i (f u) := by
  have hlt : i < l.length := by
    by_contra hcon
    rw [List.getElem?_eq_none (by omega)] at hu; cases hu
  apply List.ext_getElem?
  intro k
  rw [List.getElem?_modify, List.getElem?_set]
  by_cases hik : i = k
  · subst hik
    simp only [if_true, hlt, hu, Option.map_eq_map, Option.map_some]
  · simp only [if_neg hik, Option.map_eq_map, Option.map_id']

/-! ## Reshaping -/

theorem takeDims_names (c : Nat) (shape : Res (List Nat)) (rs : List Nat) : ∀ (w w' : World α) (k : Nat) (ns : List String),
    takeDims c shape false w k (rs.map .obj) = ((w', none), ns) →
    List.Forall₂ (fun r n => ∃ d, w.heap[r]? = some d ∧ d.name = n) rs ns := by
  induction rs with
  | nil =>
    intro w w' k ns h
    simp only [List.map_nil, takeDims, Prod.mk.injEq] at h
    rw [← h.2]; exact .nil
  | cons r rs ih =>
    intro w w' k ns h
    simp only [List.map_cons, takeDims] at h
    obtain ⟨w1, e1, h1⟩ : ∃ x y, addDimension w c r false = (x, y) := ⟨_, _, rfl⟩
    obtain ⟨a1, a2, a3, a4, a5⟩ := addDimension_ok w w1 c r e1 h1
    have hr : e1 = none → ∃ d, w.heap[r]? = some d := by
      intro he
      subst he
      unfold addDimension at h1
      cases hh : w.heap[r]? with
      | none => rw [hh] at h1; simp at h1
      | some d => exact ⟨d, rfl⟩
    rw [h1] at h
    cases e1 with
    | some e => simp at h
    | none =>
      obtain ⟨d, hd⟩ := hr rfl
      simp only [Prod.mk.injEq] at h
      obtain ⟨g1, rfl⟩ := h
      refine .cons ⟨d, hd, ?_⟩ ?_
      · rw [a3, hd]
      · have := ih w1 w' (k + 1) (takeDims c shape false w1 (k + 1) (rs.map .obj)).2 (by rw [← g1])
        rw [a3] at this
        exact this

/-! ## Dimensions made from names -/

theorem lookup_none (l : List (String × Nat)) (n : String) (h : n ∉ l.map Prod.fst) : l.lookup n = none := by
  induction l with
  | nil => rfl
  | cons p l ih =>
    obtain ⟨k, x⟩ := p
    simp only [List.map_cons, List.mem_cons, not_or] at h
    have : (n == k) = false := by simpa using h.1
    simp only [List.lookup, this]
    exact ih h.2

theorem takeDims_new (c : Nat) (s : List Nat) (ns : List String) : ∀ (w : World α) (k : Nat) (l : List (String × Nat)),
    w.colls[c]? = some l → (l.map Prod.fst ++ ns).Nodup → s.length = k + ns.length →
    ∃ l', takeDims c (.ok s) false w k (ns.map .str) =
      (({ heap := w.heap ++ List.zipWith (fun n m => ⟨n, some m, some m⟩) ns (s.drop k), colls := w.colls.set c (l ++ l'), vars := w.vars }, none), ns) ∧
      l'.map Prod.fst = ns ∧ ∀ j n, ns[j]? = some n → l'[j]? = some (n, w.heap.length + j) := by
  induction ns with
  | nil =>
    intro w k l hl _ _
    have hc : c < w.colls.length := by
      by_contra hcon
      rw [List.getElem?_eq_none (by omega)] at hl; cases hl
    have : w.colls.set c l = w.colls := by
      apply List.ext_getElem?
      intro j
      rw [List.getElem?_set]
      by_cases hcj : c = j
      · subst hcj; rw [if_pos rfl, if_pos hc, hl]
      · rw [if_neg hcj]
    exact ⟨[], by simp [takeDims, this], rfl, by simp⟩
  | cons n ns ih =>
    intro w k l hl hnd hlen
    have hnot : n ∉ l.map Prod.fst := by
      intro hmem
      exact (List.nodup_append.1 hnd).2.2 n hmem n List.mem_cons_self rfl
    have hfind : w.find c n = none := by
      cases hh : w.find c n with
      | none => rfl
      | some r =>
        obtain ⟨l2, e1, e2⟩ := (find_iff w c n r).1 hh
        rw [hl, Option.some.injEq] at e1
        subst e1
        rw [lookup_none l n hnot] at e2; cases e2
    have hk : k < s.length := by rw [hlen]; simp
    have hsk : s[k]? = some s[k] := List.getElem?_eq_getElem hk
    have hdrop : s.drop k = s[k] :: s.drop (k + 1) := List.drop_eq_getElem_cons hk
    have hadd : addDimension { w with heap := w.heap ++ [⟨n, some s[k], some s[k]⟩] } c w.heap.length false =
        ({ heap := w.heap ++ [⟨n, some s[k], some s[k]⟩], colls := w.colls.set c (l ++ [(n, w.heap.length)]), vars := w.vars }, none) := by
      unfold addDimension
      have h1 : ({ w with heap := w.heap ++ [⟨n, some s[k], some s[k]⟩] } : World α).heap[w.heap.length]? = some ⟨n, some s[k], some s[k]⟩ := by simp
      have h2 : ({ w with heap := w.heap ++ [⟨n, some s[k], some s[k]⟩] } : World α).find c n = none := hfind
      simp only [h1, h2]
      rw [modify_set w.colls c _ l hl]
    have hcl : c < w.colls.length := by
      by_contra hcon
      rw [List.getElem?_eq_none (by omega)] at hl; cases hl
    obtain ⟨l', q1, q2, q3⟩ := ih { heap := w.heap ++ [⟨n, some s[k], some s[k]⟩], colls := w.colls.set c (l ++ [(n, w.heap.length)]), vars := w.vars } (k + 1)
      (l ++ [(n, w.heap.length)]) (by simp [hcl]) (by simpa using hnd) (by rw [hlen, List.length_cons]; omega)
    refine ⟨(n, w.heap.length) :: l', ?_, by simp [q2], ?_⟩
    · simp only [List.map_cons, takeDims, hfind, hsk, hadd, q1, hdrop, List.zipWith_cons_cons]
      simp [List.set_set]
    · intro j m hj
      cases j with
      | zero => simp at hj; subst hj; simp
      | succ j =>
        simp only [List.getElem?_cons_succ] at hj ⊢
        rw [q3 j m hj]
        simp only [List.length_append, List.length_cons, List.length_nil, Option.some.injEq, Prod.mk.injEq, true_and]
        omega

/-! ## The mask of the bounds -/

theorem ravel_lt (s idx : List Nat) (h : IdxIn s idx) : ravel s idx < count s := by
  induction s generalizing idx with
  | nil => simp [ravel, count]
  | cons n ns ih =>
    obtain ⟨h1, h2⟩ := h
    cases idx with
    | nil => simp at h1
    | cons i is =>
      have hi : i < n := by simpa using h2 0 (by simp)
      have hrest : IdxIn ns is := ⟨by simpa using h1, fun k hk => by simpa using h2 (k + 1) (by simpa using hk)⟩
      have := ih is hrest
      simp only [ravel, count]
      calc i * count ns + ravel ns is < i * count ns + count ns := by omega
        _ = (i + 1) * count ns := by rw [Nat.add_mul, Nat.one_mul]
        _ ≤ n * count ns := Nat.mul_le_mul_right _ hi

theorem count_length (s : List Nat) : (allIdx s).length = count s := by rw [allIdx_length, count_eq]

theorem flatMap_get {β : Type} (f : Nat → List β) (c : Nat) (hf : ∀ i, (f i).length = c) (n i k : Nat) (hi : i < n) (hk : k < c) :
    ((List.range n).flatMap f)[i * c + k]? = (f i)[k]? := by
  induction n with
  | zero => omega
  | succ n ih =>
    rw [List.range_succ, List.flatMap_append]
    have hlen : ((List.range n).flatMap f).length = n * c := by
      clear ih hi
      induction n with
      | zero => simp
      | succ n ih => rw [List.range_succ, List.flatMap_append, List.length_append, ih]; simp [hf, Nat.add_mul]
    by_cases h : i < n
    · rw [List.getElem?_append_left, ih h]
      rw [hlen]
      calc i * c + k < i * c + c := by omega
        _ = (i + 1) * c := by rw [Nat.add_mul, Nat.one_mul]
        _ ≤ n * c := Nat.mul_le_mul_right _ h
    · have : i = n := by omega
      subst this
      rw [List.getElem?_append_right (by rw [hlen]; omega), hlen]
      simp

theorem allIdx_ravel (s idx : List Nat) (h : IdxIn s idx) : (allIdx s)[ravel s idx]? = some idx := by
  induction s generalizing idx with
  | nil =>
    have : idx = [] := List.length_eq_zero_iff.1 h.1
    subst this; rfl
  | cons n ns ih =>
    obtain ⟨h1, h2⟩ := h
    cases idx with
    | nil => simp at h1
    | cons i is =>
      have hi : i < n := by simpa using h2 0 (by simp)
      have hrest : IdxIn ns is := ⟨by simpa using h1, fun k hk => by simpa using h2 (k + 1) (by simpa using hk)⟩
      simp only [allIdx, ravel]
      rw [flatMap_get _ (count ns) (fun i => by rw [List.length_map, count_length]) n i _ hi (ravel_lt _ _ hrest),
        List.getElem?_map, ih is hrest]
      rfl

theorem getD_true (l : List Bool) (k : Nat) : l.getD k false = true ↔ l[k]? = some true := by
  rw [List.getD_eq_getElem?_getD]
  cases l[k]? with
  | none => simp
  | some b => simp

theorem idxIn_append (s t idx jdx : List Nat) (h : IdxIn s idx) (g : IdxIn t jdx) : IdxIn (s ++ t) (idx ++ jdx) := by
  refine ⟨by simp [h.1, g.1], fun k hk => ?_⟩
  by_cases hks : k < s.length
  · have := h.2 k hks
    rw [List.getD_eq_getElem?_getD, List.getElem?_append_left (by rw [h.1]; exact hks), List.getD_eq_getElem?_getD (l := s ++ t), List.getElem?_append_left hks]
    rw [List.getD_eq_getElem?_getD, List.getD_eq_getElem?_getD] at this
    exact this
  · have hk2 : k - s.length < t.length := by rw [List.length_append] at hk; omega
    have := g.2 _ hk2
    rw [List.getD_eq_getElem?_getD, List.getElem?_append_right (by rw [h.1]; omega), List.getD_eq_getElem?_getD (l := s ++ t), List.getElem?_append_right (by omega), h.1]
    rw [List.getD_eq_getElem?_getD, List.getD_eq_getElem?_getD] at this
    exact this

theorem sameCoordinates_prefix (ns extra : List String) (s idx jdx : List Nat) (hnd : (ns ++ extra).Nodup) (hs : s.length = ns.length) (hi : idx.length = ns.length) :
    SameCoordinates ns (ns ++ extra) s (idx ++ jdx) ↔ s = idx := by
  constructor
  · intro h
    apply List.ext_getElem?
    intro k
    by_cases hk : k < ns.length
    · have := h k k ns[k] (List.getElem?_eq_getElem hk) (by rw [List.getElem?_append_left hk, List.getElem?_eq_getElem hk])
      rw [this, List.getElem?_append_left (by omega)]
    · rw [List.getElem?_eq_none (by omega), List.getElem?_eq_none (by omega)]
  · rintro rfl i j n h1 h2
    have hil : i < ns.length := by
      by_contra hcon
      rw [List.getElem?_eq_none (by omega)] at h1; cases h1
    have hij : (ns ++ extra)[i]? = some n := by rw [List.getElem?_append_left hil]; exact h1
    have hjl : j < (ns ++ extra).length := by
      by_contra hcon
      rw [List.getElem?_eq_none (by omega)] at h2; cases h2
    have : i = j := (List.getElem?_inj (by rw [List.length_append]; omega) hnd).1 (hij.trans h2.symm)
    subst this
    rw [List.getElem?_append_left (by omega)]

/-! ## A check that can be computed -/

/-- Does the variable fit? -/
def fitsB (w : World α) (v : Vr α) : Bool :=
  match w.refs v with
  | none => false
  | some rs => (rs.all fun r => decide (r < w.heap.length)) && decide (v.names.Nodup) &&
    (match v.value with
      | none => true
      | some a => decide (a.shape = rs.map w.len ∧ a.data.length = (rs.map w.len).foldr (· * ·) 1)) &&
    (match v.mask with
      | none => true
      | some a => decide (a.shape = rs.map w.len ∧ a.data.length = (rs.map w.len).foldr (· * ·) 1))

theorem fitsB_iff (w : World α) (v : Vr α) : fitsB w v = true ↔ Fitting w v := by
  unfold fitsB Fitting OfShape
  constructor
  · intro h
    cases hr : w.refs v with
    | none => rw [hr] at h; cases h
    | some rs =>
      rw [hr] at h
      simp only [Bool.and_eq_true, List.all_eq_true, decide_eq_true_eq] at h
      obtain ⟨⟨⟨h1, h2⟩, h3⟩, h4⟩ := h
      have hex : ∃ ds, List.Forall₂ (fun r d => w.heap[r]? = some d) rs ds := by
        clear h3 h4 hr
        induction rs with
        | nil => exact ⟨[], .nil⟩
        | cons r rs ih =>
          obtain ⟨ds, hds⟩ := ih fun x hx => h1 x (List.mem_cons_of_mem _ hx)
          have := h1 r List.mem_cons_self
          exact ⟨w.heap[r] :: ds, .cons (List.getElem?_eq_getElem this) hds⟩
      obtain ⟨ds, hds⟩ := hex
      refine ⟨ds, (hasDims_iff w v ds).2 ⟨rs, hr, hds⟩, h2, ?_, ?_⟩
      · intro a ha
        rw [ha] at h3
        rw [← lens_eq w rs ds hds]
        simpa using h3
      · intro a ha
        rw [ha] at h4
        rw [← lens_eq w rs ds hds]
        simpa using h4
  · rintro ⟨ds, hd, h2, h3, h4⟩
    obtain ⟨rs, hr, hds⟩ := (hasDims_iff w v ds).1 hd
    rw [hr]
    simp only [Bool.and_eq_true, List.all_eq_true, decide_eq_true_eq]
    refine ⟨⟨⟨?_, h2⟩, ?_⟩, ?_⟩
    · intro r hr'
      clear h3 h4 hd hr
      induction hds with
      | nil => cases hr'
      | cons g _ ih =>
        rcases List.mem_cons.1 hr' with rfl | hr'
        · by_contra hcon
          rw [List.getElem?_eq_none (by omega)] at g; cases g
        · exact ih hr'
    · cases hv : v.value with
      | none => rfl
      | some a => simp only [decide_eq_true_eq]; rw [lens_eq w rs ds hds]; exact h3 a hv
    · cases hv : v.mask with
      | none => rfl
      | some a => simp only [decide_eq_true_eq]; rw [lens_eq w rs ds hds]; exact h4 a hv

/-- Does everything fit? -/
def allB (w : World α) : Bool :=
  (w.heap.all fun d => d.size.isSome) &&
  (w.colls.all fun c => c.all fun p => match w.heap[p.2]? with | some d => d.name == p.1 | none => false) &&
  w.vars.all fun v => decide (v.coll < w.colls.length) && fitsB w v

theorem allB_iff (w : World α) : allB w = true ↔ AllFit w := by
  unfold allB
  simp only [Bool.and_eq_true, List.all_eq_true, decide_eq_true_eq, fitsB_iff]
  constructor
  · rintro ⟨⟨h1, h2⟩, h3⟩
    refine ⟨h1, ?_, h3⟩
    intro c hc p hp
    have := h2 c hc p hp
    cases hh : w.heap[p.2]? with
    | none => rw [hh] at this; cases this
    | some d => rw [hh] at this; exact ⟨d, rfl, by simpa using this⟩
  · rintro ⟨h1, h2, h3⟩
    refine ⟨⟨h1, ?_⟩, h3⟩
    intro c hc p hp
    obtain ⟨d, e1, e2⟩ := h2 c hc p hp
    rw [e1]; simpa using e2

instance (w : World α) (v : Vr α) : Decidable (Fitting w v) := decidable_of_iff _ (fitsB_iff w v)
instance (w : World α) : Decidable (AllFit w) := decidable_of_iff _ (allB_iff w)

theorem updateLengths_vars (w : World α) (a : Option (NArr α)) (rs : Option (List Nat)) :
    (updateLengths w a rs).1.vars = w.vars := by
  unfold updateLengths
  cases rs with
  | none => rfl
  | some rs =>
    cases a with
    | none => rfl
    | some a => simp only; split <;> rfl

theorem setDimsCore_done {w w' : World α} {i : Nat} {as : List DimArg} {v : Vr α} (hv : w.vars[i]? = some v)
    (h : setDimsCore w i (some as) false = (w', none)) :
    ∃ x ns, takeDims v.coll (w.shape v) false w 0 as = ((x, none), ns) ∧ w'.vars[i]? = some { v with dims := some ns } ∧
      ∀ j, j ≠ i → w'.vars[j]? = w.vars[j]? := by
  unfold setDimsCore at h
  rw [hv] at h
  simp only at h
  obtain ⟨x, e, ns, ht⟩ : ∃ x e ns, takeDims v.coll (w.shape v) false w 0 as = ((x, e), ns) := ⟨_, _, _, rfl⟩
  rw [ht] at h
  cases e with
  | some e => cases h
  | none =>
    simp only at h
    have hx := (takeDims_ok v.coll (w.shape v) as w x 0 none ns ht).2.2.1
    by_cases hn : ns.Nodup
    · rw [if_pos hn] at h
      have hvars := updateLengths_vars (x.modify i fun v => { v with dims := some ns }) v.value
        ((x.modify i fun v => { v with dims := some ns }).refs { v with dims := some ns })
      rw [h] at hvars
      refine ⟨x, ns, ht, ?_, fun j hj => ?_⟩
      · simp only at hvars
        rw [hvars]
        simp [World.modify, hx, hv]
      · simp only at hvars
        rw [hvars]
        simp only [World.modify, hx, List.getElem?_modify, if_neg (Ne.symm hj)]
        simp
    · rw [if_neg hn] at h
      cases h

theorem refs_names {w : World α} (hn : DimsNamed w) {v : Vr α} {rs : List Nat} (h : w.refs v = some rs) :
    List.Forall₂ (fun r n => ∃ d, w.heap[r]? = some d ∧ d.name = n) rs (v.dims.getD []) := by
  unfold World.refs Vr.names at h
  generalize v.dims.getD [] = ns at h ⊢
  induction ns generalizing rs with
  | nil => cases h; exact .nil
  | cons n ns ih =>
    unfold World.findAll at h
    cases hf : w.find v.coll n with
    | none => rw [hf] at h; cases h
    | some r =>
      cases hm : w.findAll v.coll ns with
      | none => rw [hf, hm] at h; cases h
      | some rs' =>
        rw [hf, hm] at h
        cases h
        refine .cons ?_ (ih hm)
        obtain ⟨c, hc, hl⟩ := (find_iff w _ _ r).1 hf
        obtain ⟨d, hd, hdn⟩ := hn c (List.mem_of_getElem? hc) (n, r) (by
          clear hc hf hm
          induction c with
          | nil => simp at hl
          | cons p l ihl =>
            obtain ⟨k, x⟩ := p
            simp only [List.lookup] at hl
            cases hk : n == k with
            | true =>
              rw [hk] at hl
              cases hl
              rw [beq_iff_eq] at hk
              subst hk
              exact List.mem_cons_self
            | false =>
              rw [hk] at hl
              exact List.mem_cons_of_mem _ (ihl hl))
        exact ⟨d, hd, hdn⟩

theorem forall₂_names_unique {w : World α} {rs : List Nat} {ns ms : List String}
    (h : List.Forall₂ (fun r n => ∃ d, w.heap[r]? = some d ∧ d.name = n) rs ns)
    (g : List.Forall₂ (fun r n => ∃ d, w.heap[r]? = some d ∧ d.name = n) rs ms) : ns = ms := by
  induction h generalizing ms with
  | nil => cases g; rfl
  | cons h1 _ ih =>
    cases g with
    | cons g1 g2 =>
      obtain ⟨d, a, b⟩ := h1
      obtain ⟨d', a', b'⟩ := g1
      rw [a] at a'
      cases a'
      rw [← b, ← b', ih g2]

end Ocgis.Proofs.VarShape
