import Verif.Spec.CellCalc
import Verif.Proofs.Aggregate
/-!
# Lemmas on calculations cell by cell
-/
namespace Ocgis.CellCalc
open Ocgis Ocgis.Array Ocgis.Aggregate Ocgis.Spec Ocgis.Props

theorem filterMap_some {β γ : Type _} (l : List γ) (x : β) : (l.filterMap fun _ => some x) = l.map fun _ => x := by
  induction l with
  | nil => rfl
  | cons a l ih => simp [ih]

theorem zip_map_self {β γ : Type _} (l : List γ) (f : γ → β) : l.zip (l.map f) = l.map fun o => (o, f o) := by
  induction l with
  | nil => rfl
  | cons o l ih => simp [ih]

theorem min_const (n : Nat) : ∀ k : Nat, (List.replicate (k + 1) n).min? = some n := by
  intro k
  rw [List.min?_replicate]
  simp

theorem zipAll_same {β γ : Type _} (ops : List γ) (h : ops ≠ []) (L : List β) :
    zipAll (ops.map fun _ => L) = L.map fun x => ops.map fun _ => x := by
  unfold zipAll
  have hm : (((ops.map fun _ => L).map List.length).min?.getD 0) = L.length := by
    cases ops with
    | nil => exact absurd rfl h
    | cons a rest =>
      have : (((a :: rest).map fun _ => L).map List.length) = List.replicate (rest.length + 1) L.length := by
        rw [List.map_map, List.eq_replicate_iff]
        refine ⟨by simp, ?_⟩
        intro b hb
        obtain ⟨_, _, rfl⟩ := List.mem_map.1 hb
        rfl
      rw [this, min_const]
      rfl
  rw [hm]
  apply List.ext_getElem
  · simp
  · intro i h1 h2
    have hi : i < L.length := by simpa using h1
    simp only [List.getElem_map, List.getElem_range, List.filterMap_map, Function.comp_def]
    have : (fun _ : γ => L[i]?) = fun _ => some L[i] := by
      funext _
      exact List.getElem?_eq_getElem hi
    rw [this]
    generalize L[i] = x
    exact filterMap_some ops x

theorem bshape_ok (S : String → Nat) (f g : String → Nat) : ∀ l : List String, (∀ n ∈ l, f n = 1 ∨ f n = S n) →
    (∀ n ∈ l, g n = 1 ∨ g n = S n) → ∃ r : String → Nat, bshape (l.map f) (l.map g) = some (l.map r) ∧ ∀ n, r n = (if f n = 1 then g n else f n) := by
  intro l
  induction l with
  | nil => intro _ _; exact ⟨_, rfl, fun _ => rfl⟩
  | cons n l ih =>
    intro hf hg
    obtain ⟨r, h1, h2⟩ := ih (fun m hm => hf m (List.mem_cons_of_mem _ hm)) (fun m hm => hg m (List.mem_cons_of_mem _ hm))
    refine ⟨fun n => if f n = 1 then g n else f n, ?_, fun _ => rfl⟩
    have hr : l.map r = l.map fun n => if f n = 1 then g n else f n := List.map_congr_left fun m _ => h2 m
    simp only [List.map_cons, bshape, h1, hr, bind, Option.bind]
    have hfn := hf n (by simp)
    have hgn := hg n (by simp)
    by_cases he : f n = g n
    · rw [if_pos he]
      by_cases h1' : f n = 1
      · rw [if_pos h1', he]
      · rw [if_neg h1']
    · rw [if_neg he]
      by_cases h1' : f n = 1
      · rw [if_pos h1', if_pos h1']
      · rw [if_neg h1', if_neg h1']
        rcases hgn with hgn | hgn
        · rw [if_pos hgn]
        · rcases hfn with hfn | hfn
          · exact absurd hfn h1'
          · exact absurd (hfn.trans hgn.symm) he

theorem resultShape_ok {γ : Type _} (S : String → Nat) (l : List String) (s : γ → String → Nat) :
    ∀ us : List γ, us ≠ [] → (∀ u ∈ us, ∀ n ∈ l, s u n = 1 ∨ s u n = S n) →
    ∃ r : String → Nat, resultShape (us.map fun u => l.map (s u)) = some (l.map r) ∧ ∀ n ∈ l, r n = 1 ∨ r n = S n := by
  intro us
  induction us with
  | nil => intro h; exact absurd rfl h
  | cons u us ih =>
    intro _ h
    cases us with
    | nil => exact ⟨s u, rfl, h u (by simp)⟩
    | cons u' us =>
      obtain ⟨r, h1, h2⟩ := ih (by simp) (fun v hv => h v (List.mem_cons_of_mem _ hv))
      obtain ⟨r', h3, h4⟩ := bshape_ok S (s u) r l (h u (by simp)) h2
      refine ⟨r', ?_, ?_⟩
      · simp only [List.map_cons] at h1 ⊢
        simp only [resultShape, bind, Option.bind]
        rw [h1]
        exact h3
      · intro n hn
        rw [h4]
        split
        · exact h2 n hn
        · exact h u (by simp) n hn

theorem assignable_ok (S r : String → Nat) (l : List String) (h : ∀ n ∈ l, r n = 1 ∨ r n = S n) : assignable (l.map r) (l.map S) = true := by
  unfold assignable
  simp only [List.length_map, beq_self_eq_true, Bool.true_and]
  induction l with
  | nil => rfl
  | cons n l ih =>
    simp only [List.map_cons, List.zip_cons_cons, List.all_cons, Bool.and_eq_true]
    refine ⟨?_, ih fun m hm => h m (List.mem_cons_of_mem _ hm)⟩
    rcases h n (by simp) with h | h <;> simp [h]

theorem clip_map (s p : String → Nat) (l : List String) : clip (l.map s) (l.map p) = l.map fun n => if s n = 1 then 0 else p n := by
  unfold clip
  induction l with
  | nil => rfl
  | cons n l ih => simp [ih]

theorem indices_mem (S : String → Nat) : ∀ (l : List String), l.Nodup → ∀ idx, idx ∈ indices (l.map S) ↔
    ∃ p : String → Nat, idx = l.map p ∧ ∀ n ∈ l, p n < S n := by
  intro l
  induction l with
  | nil => intro _ idx; simp [indices]
  | cons n l ih =>
    intro hnd idx
    rw [List.nodup_cons] at hnd
    simp only [List.map_cons, indices, List.mem_flatMap, List.mem_range, List.mem_map]
    constructor
    · rintro ⟨i, hi, t, ht, rfl⟩
      obtain ⟨p, rfl, hp⟩ := (ih hnd.2 t).1 ht
      refine ⟨fun m => if m = n then i else p m, ?_, ?_⟩
      · simp only [if_true]
        congr 1
        apply List.map_congr_left
        intro m hm
        rw [if_neg (by rintro rfl; exact hnd.1 hm)]
      · intro m hm
        by_cases he : m = n
        · subst he; simpa using hi
        · show (if m = n then i else p m) < S m
          rw [if_neg he]
          exact hp m ((List.mem_cons.1 hm).resolve_left he)
    · rintro ⟨p, rfl, hp⟩
      exact ⟨p n, hp n (by simp), l.map p, (ih hnd.2 _).2 ⟨p, rfl, fun m hm => hp m (List.mem_cons_of_mem _ hm)⟩, rfl⟩

theorem extras_eq (names : List String) (size : String → Nat) :
    extras names (names.map size) = (names.filter fun n => !standard.contains n).map fun n => (n, size n) := by
  rw [extras, zip_map_names, List.filter_map]
  rfl

/-- The length of a dimension in a conformed array. -/
def lengthIn {α : Type _} (size : String → Nat) (o : Operand α) (n : String) : Nat := if n ∈ o.names then size n else 1

/-- A place from the indices of a conformed array and the choice of extra indices. -/
def place (e : List (String × Nat)) (p : String → Nat) : String → Nat :=
  fun n => if n ∈ standard then p n else (e.lookup n).getD 0

theorem place_standard (e : List (String × Nat)) (p : String → Nat) : standard.map (place e p) = standard.map p := by
  apply List.map_congr_left
  intro n hn
  simp [place, hn]

/-- The conformed array of an operand for a choice. -/
theorem view_spec {α : Type _} (size : String → Nat) (a o : Operand α) (h : FitsFirst size a o) (e : List (String × Nat)) :
    ∃ v, conform o.names o.shape e = .ok v ∧ v.shape = standard.map (lengthIn size o) ∧
      ∀ p : String → Nat, v.elem (standard.map p) = o.names.map (place e p) := by
  obtain ⟨v, h1, h2, h3⟩ := conform_spec o.names h.nodup size e
  refine ⟨v, by rw [h.shape]; exact h1, h2, ?_⟩
  intro p
  rw [← place_standard e p, h3 (place e p)]
  intro n _ hns
  simp [place, hns]

/-- What one round writes. -/
theorem oneRound_spec {α : Type _} (c : Calc α) (size : String → Nat) (a : Operand α) (ops : List (Operand α))
    (hne : ops ≠ []) (hused : ∃ k, k < ops.length ∧ c.uses k = true) (ha : FitsFirst size a a) (hal : ∀ o ∈ ops, FitsFirst size a o)
    (e : List (String × Nat)) (he : e ∈ extraChoices (extras a.names a.shape)) :
    ∃ ws, oneRound c ops a (ops.map fun _ => e) = .ok ws ∧ ∀ w, w ∈ ws ↔
      ∃ p : String → Nat, (∀ n ∈ standard, p n < lengthIn size a n) ∧
        w = (a.names.map (place e p), (a.store (c.f (inputsAt c ops (place e p))).1, (c.f (inputsAt c ops (place e p))).2)) := by
  have hexn : ((extras a.names a.shape).map (·.1)) = a.names.filter fun n => !standard.contains n := by
    rw [ha.shape, extras_eq, List.map_map]
    simp [Function.comp_def]
  have hexnd : ((extras a.names a.shape).map (·.1)).Nodup := by rw [hexn]; exact List.Pairwise.filter _ ha.nodup
  obtain ⟨hen, heb⟩ := (extraChoices_mem _ hexnd e).1 he
  -- every member of the choice is in range
  have hebound : ∀ ni ∈ e, ni.1 ∈ a.names ∧ ni.1 ∉ standard ∧ ni.2 < size ni.1 := by
    rintro ⟨n, i⟩ hni
    have hn : n ∈ e.map (·.1) := List.mem_map.2 ⟨_, hni, rfl⟩
    rw [hen, hexn, List.mem_filter] at hn
    have hns : n ∉ standard := by simpa using hn.2
    have hm : (n, size n) ∈ extras a.names a.shape := by
      rw [ha.shape, extras_eq]
      exact List.mem_map.2 ⟨n, List.mem_filter.2 hn, rfl⟩
    obtain ⟨j, hj, hlt⟩ := heb n _ hm
    have hend : (e.map (·.1)).Nodup := by rw [hen]; exact hexnd
    have : j = i := by
      clear hen heb he hn hm hlt
      induction e with
      | nil => cases hni
      | cons x e ih =>
        obtain ⟨m, k⟩ := x
        simp only [List.map_cons, List.nodup_cons] at hend
        rcases List.mem_cons.1 hni with h | h
        · injection h with h1 h2
          subst h1 h2
          simp [List.lookup] at hj
          exact hj.symm
        · have hne : n ≠ m := by
            rintro rfl
            exact hend.1 (List.mem_map.2 ⟨_, h, rfl⟩)
          rw [List.lookup, beq_eq_false_iff_ne.2 hne] at hj
          exact ih h hj hend.2
    subst this
    exact ⟨hn.1, hns, hlt⟩
  have hfi : ∀ o ∈ ops, fillIndexable a.shape o e = true := by
    intro o ho
    have hA := hal o ho
    unfold fillIndexable
    simp only [Bool.and_eq_true, decide_eq_true_eq, List.all_eq_true]
    refine ⟨?_, ?_⟩
    · rw [ha.shape, List.length_map]
      exact List.Nodup.length_le_of_subset hA.nodup fun x hx => hA.within x hx
    · rintro ⟨n, i⟩ hni
      obtain ⟨hna, hns, hlt⟩ := hebound _ hni
      have hno : n ∈ o.names := by
        have : n ∈ a.names.filter fun n => !standard.contains n := List.mem_filter.2 ⟨hna, by simpa using hns⟩
        rw [← hA.extras] at this
        exact (List.mem_filter.1 this).1
      simp only
      rw [hA.places n hno hns, ha.shape]
      have hl := List.idxOf_lt_length_of_mem hna
      rw [List.getD_eq_getElem?_getD, List.getElem?_eq_getElem (by simpa using hl)]
      simp only [List.getElem_map, List.getElem_idxOf, Option.getD_some]
      exact hlt
  have hv := fun o (ho : o ∈ ops) => view_spec size a o (hal o ho) e
  classical
  let V : Operand α → Arr (List Nat) := fun o => if ho : o ∈ ops then (hv o ho).choose else ⟨[], id⟩
  have hVe : ∀ o (ho : o ∈ ops), V o = (hv o ho).choose := fun o ho => by simp [V, ho]
  have hV1 : ∀ o ∈ ops, conform o.names o.shape e = .ok (V o) := fun o ho => by rw [hVe o ho]; exact (hv o ho).choose_spec.1
  have hV2 : ∀ o ∈ ops, (V o).shape = standard.map (lengthIn size o) := fun o ho => by rw [hVe o ho]; exact (hv o ho).choose_spec.2.1
  have hV3 : ∀ o ∈ ops, ∀ p : String → Nat, (V o).elem (standard.map p) = o.names.map (place e p) := fun o ho => by
    rw [hVe o ho]; exact (hv o ho).choose_spec.2.2
  obtain ⟨cf, hc1, hc2, hc3⟩ := view_spec size a a ha e
  have hviews : (ops.zip (ops.map fun _ => e)).mapM (fun p => (do
      if !fillIndexable a.shape p.1 p.2 then throw .indexError
      conform p.1.names p.1.shape p.2 : Res (Arr (List Nat)))) = .ok (ops.map V) := by
    have hz : ops.zip (ops.map fun _ => e) = ops.map fun o => (o, e) := zip_map_self ops _
    rw [Ocgis.Mpi.mapM_ok _ _ (fun p => V p.1)]
    · rw [hz, List.map_map]
      rfl
    · intro p hp
      rw [hz] at hp
      obtain ⟨o, ho, rfl⟩ := List.mem_map.1 hp
      simp only [hfi o ho, hV1 o ho]
      rfl
  have hhead : (ops.map fun _ => e).headD [] = e := by
    cases ops with
    | nil => exact absurd rfl hne
    | cons _ _ => rfl
  -- the shape of the result
  have hS : ∀ o ∈ ops, ∀ n ∈ standard, lengthIn size o n = 1 ∨ lengthIn size o n = lengthIn size a n := by
    intro o ho n _
    unfold lengthIn
    by_cases h : n ∈ o.names
    · right; rw [if_pos h, if_pos ((hal o ho).within n h)]
    · left; rw [if_neg h]
  let used := ((ops.zipIdx).filter fun p => c.uses p.2).map (·.1)
  have hused1 : ((ops.map V).zipIdx.filter fun p => c.uses p.2).map (·.1) = used.map V := by
    simp only [used, List.zipIdx_map, List.filter_map, List.map_map]
    rfl
  have husedne : used ≠ [] := by
    obtain ⟨k, hk, hu⟩ := hused
    intro h
    have : ops[k] ∈ used := by
      refine List.mem_map.2 ⟨(ops[k], k), List.mem_filter.2 ⟨?_, hu⟩, rfl⟩
      rw [List.mk_mem_zipIdx_iff_getElem?]
      exact List.getElem?_eq_getElem hk
    rw [h] at this
    cases this
  have husedm : ∀ o ∈ used, o ∈ ops := by
    intro o ho
    obtain ⟨⟨o', k⟩, hm, rfl⟩ := List.mem_map.1 ho
    exact (List.fst_mem_of_mem_zipIdx (List.mem_filter.1 hm).1)
  obtain ⟨r, hr1, hr2⟩ := resultShape_ok (lengthIn size a) standard (lengthIn size) used husedne (fun o ho => hS o (husedm o ho))
  have hr1' : resultShape ((used.map V).map (·.shape)) = some (standard.map r) := by
    rw [List.map_map, ← hr1]
    congr 1
    apply List.map_congr_left
    intro o ho
    exact hV2 o (husedm o ho)
  have hround : roundWrites c ops a.store (ops.map V) cf = .ok ((indices cf.shape).map fun idx =>
        let res := c.f ((ops.zip (ops.map V)).zipIdx.map fun p => c.see p.2 p.1.1 (p.1.2.elem (clip p.1.2.shape idx)))
        (cf.elem idx, (a.store res.1, res.2))) := by
    unfold roundWrites
    simp only [hused1, hr1', hc2, assignable_ok _ _ _ hr2, if_true]
  refine ⟨(indices cf.shape).map fun idx =>
        let res := c.f ((ops.zip (ops.map V)).zipIdx.map fun p => c.see p.2 p.1.1 (p.1.2.elem (clip p.1.2.shape idx)))
        (cf.elem idx, (a.store res.1, res.2)), ?_, ?_⟩
  · unfold oneRound
    rw [hviews]
    simp only [hhead, hc1]
    exact hround
  · intro w
    rw [List.mem_map]
    -- the inputs at an index
    have hin : ∀ p : String → Nat, (∀ n ∈ standard, p n < lengthIn size a n) →
        ((ops.zip (ops.map V)).zipIdx.map fun q => c.see q.2 q.1.1 (q.1.2.elem (clip q.1.2.shape (standard.map p)))) =
          inputsAt c ops (place e p) := by
      intro p hp
      have hz : ops.zip (ops.map V) = ops.map fun o => (o, V o) := zip_map_self ops _
      rw [hz, List.zipIdx_map, List.map_map]
      unfold inputsAt
      apply List.map_congr_left
      rintro ⟨o, k⟩ hok
      have ho : o ∈ ops := List.fst_mem_of_mem_zipIdx hok
      have hidx : (V o).elem (clip (V o).shape (standard.map p)) = o.names.map (place e p) := by
        rw [hV2 o ho, clip_map, hV3 o ho]
        apply List.map_congr_left
        intro n hn
        unfold place
        by_cases hns : n ∈ standard
        · rw [if_pos hns, if_pos hns]
          show (if lengthIn size o n = 1 then 0 else p n) = p n
          split
          · next h1 =>
            have := hp n hns
            unfold lengthIn at this h1
            rw [if_pos hn] at h1
            rw [if_pos ((hal o ho).within n hn)] at this
            omega
          · rfl
        · rw [if_neg hns, if_neg hns]
      simp only [Function.comp, Prod.map, id, Calc.see, Operand.at, Operand.cell, hidx]
    constructor
    · rintro ⟨idx, hidx, rfl⟩
      rw [hc2, indices_mem _ _ (by decide)] at hidx
      obtain ⟨p, rfl, hp⟩ := hidx
      refine ⟨p, hp, ?_⟩
      simp only [hin p hp, hc3 p]
    · rintro ⟨p, hp, rfl⟩
      refine ⟨standard.map p, ?_, ?_⟩
      · rw [hc2, indices_mem _ _ (by decide)]
        exact ⟨p, rfl, hp⟩
      · simp only [hin p hp, hc3 p]

theorem choicesOf_ok {α : Type} (size : String → Nat) (a o : Operand α) (h : FitsFirst size a o)
    (hpos : ∀ n ∈ a.names, n ∉ standard → 0 < size n) :
    choicesOf o = .ok (extraChoices ((a.names.filter fun n => !standard.contains n).map fun n => (n, size n))) := by
  have he : extras o.names o.shape = (a.names.filter fun n => !standard.contains n).map fun n => (n, size n) := by
    rw [h.shape, extras_eq, h.extras]
  unfold choicesOf
  rw [he, if_neg]
  rw [List.any_eq_true]
  rintro ⟨⟨n, s⟩, hm, hz⟩
  obtain ⟨n', hm', hx⟩ := List.mem_map.1 hm
  injection hx with e1 e2
  subst e1 e2
  rw [List.mem_filter] at hm'
  have := hpos n' hm'.1 (by simpa using hm'.2)
  simp at hz
  omega

theorem rows_ok {α : Type} (size : String → Nat) (a : Operand α) (ops : List (Operand α)) (hne : ops ≠ [])
    (hal : ∀ o ∈ ops, FitsFirst size a o) (ha : FitsFirst size a a) (hpos : ∀ n ∈ a.names, n ∉ standard → 0 < size n) :
    rows ops = .ok ((extraChoices (extras a.names a.shape)).map fun e => ops.map fun _ => e) := by
  unfold rows
  rw [Ocgis.Mpi.mapM_ok ops choicesOf (fun _ => extraChoices (extras a.names a.shape))]
  · show Except.ok (zipAll _) = _
    rw [zipAll_same ops hne]
  · intro o ho
    rw [choicesOf_ok size a o (hal o ho) hpos, ha.shape, extras_eq]

/-- The loop over cells. -/
theorem compute_spec {α : Type} (c : Calc α) (size : String → Nat) (a : Operand α) (rest : List (Operand α))
    (hused : ∃ k, k < (a :: rest).length ∧ c.uses k = true) (hal : ∀ o ∈ a :: rest, FitsFirst size a o)
    (hpos : ∀ n ∈ a.names, n ∉ standard → 0 < size n) :
    ∃ out, compute c (a :: rest) = .ok out ∧ out.shape = a.shape ∧ ∀ pos : String → Nat, (∀ n ∈ a.names, pos n < size n) →
      out.elem (a.names.map pos) = (a.store (c.f (inputsAt c (a :: rest) pos)).1, (c.f (inputsAt c (a :: rest) pos)).2) := by
  have ha := hal a (by simp)
  have hsp := oneRound_spec c size a (a :: rest) (by simp) hused ha hal
  classical
  let W : List (String × Nat) → List (List Nat × Cell α) := fun e =>
    if he : e ∈ extraChoices (extras a.names a.shape) then (hsp e he).choose else []
  have hWe : ∀ e (he : e ∈ extraChoices (extras a.names a.shape)), W e = (hsp e he).choose := fun e he => by simp [W, he]
  have hW1 : ∀ e ∈ extraChoices (extras a.names a.shape), oneRound c (a :: rest) a ((a :: rest).map fun _ => e) = .ok (W e) :=
    fun e he => by rw [hWe e he]; exact (hsp e he).choose_spec.1
  have hW2 := fun e (he : e ∈ extraChoices (extras a.names a.shape)) => (hsp e he).choose_spec.2
  refine ⟨⟨a.shape, applyWrites (fun _ => (a.fill, false)) ((extraChoices (extras a.names a.shape)).map W).flatten⟩, ?_, rfl, ?_⟩
  · unfold compute
    simp only [rows_ok size a (a :: rest) (by simp) hal ha hpos]
    have hm : ((extraChoices (extras a.names a.shape)).map fun e => (a :: rest).map fun _ => e).mapM (oneRound c (a :: rest) a) =
        .ok ((extraChoices (extras a.names a.shape)).map W) := by
      rw [List.mapM_map]
      exact Ocgis.Mpi.mapM_ok _ _ W hW1
    show (((extraChoices (extras a.names a.shape)).map fun e => (a :: rest).map fun _ => e).mapM (oneRound c (a :: rest) a) >>= fun parts =>
      Except.ok (⟨a.shape, applyWrites (fun _ => (a.fill, false)) parts.flatten⟩ : Arr (Cell α))) = _
    rw [hm]
    rfl
  · intro pos hp
    show applyWrites (fun _ => (a.fill, false)) _ (a.names.map pos) = _
    -- places that agree on the dimensions have the same inputs
    have hsame : ∀ q : String → Nat, a.names.map q = a.names.map pos → inputsAt c (a :: rest) q = inputsAt c (a :: rest) pos := by
      intro q hq
      have hq' : ∀ n ∈ a.names, q n = pos n := List.map_inj_left.1 hq
      unfold inputsAt
      apply List.map_congr_left
      rintro ⟨o, k⟩ hok
      have ho : o ∈ a :: rest := List.fst_mem_of_mem_zipIdx hok
      have : o.names.map q = o.names.map pos := List.map_congr_left fun n hn => hq' n ((hal o ho).within n hn)
      simp only [Operand.at, this]
    apply applyWrites_get
    · intro w hw hwb
      obtain ⟨l, hl, hw⟩ := List.mem_flatten.1 hw
      obtain ⟨e, he, rfl⟩ := List.mem_map.1 hl
      rw [hWe e he] at hw
      obtain ⟨p, _, rfl⟩ := (hW2 e he w).1 hw
      simp only [hsame _ hwb]
    · left
      let e := (a.names.filter fun n => !standard.contains n).map fun n => (n, pos n)
      have hlook : ∀ n ∈ a.names, n ∉ standard → e.lookup n = some (pos n) := by
        intro n hn hns
        apply lookup_map_pos
        rw [List.mem_filter]
        exact ⟨hn, by simpa using hns⟩
      have hexn : ((extras a.names a.shape).map (·.1)) = a.names.filter fun n => !standard.contains n := by
        rw [ha.shape, extras_eq, List.map_map]
        simp [Function.comp_def]
      have he : e ∈ extraChoices (extras a.names a.shape) := by
        rw [extraChoices_mem _ (by rw [hexn]; exact List.Pairwise.filter _ ha.nodup)]
        refine ⟨?_, ?_⟩
        · rw [hexn]
          simp [e, Function.comp_def]
        · intro n s hm
          rw [ha.shape, extras_eq] at hm
          obtain ⟨n', hm', hx⟩ := List.mem_map.1 hm
          injection hx with e1 e2
          subst e1 e2
          rw [List.mem_filter] at hm'
          have hns : n' ∉ standard := by simpa using hm'.2
          exact ⟨pos n', hlook n' hm'.1 hns, hp n' hm'.1⟩
      have hplace : a.names.map (place e fun n => if n ∈ a.names then pos n else 0) = a.names.map pos := by
        apply List.map_congr_left
        intro n hn
        unfold place
        by_cases hns : n ∈ standard
        · rw [if_pos hns]
          exact if_pos hn
        · rw [if_neg hns, hlook n hn hns]
          rfl
      let q := place e fun n => if n ∈ a.names then pos n else 0
      refine ⟨(a.names.map q, (a.store (c.f (inputsAt c (a :: rest) q)).1, (c.f (inputsAt c (a :: rest) q)).2)),
        List.mem_flatten.2 ⟨W e, List.mem_map.2 ⟨e, he, rfl⟩, ?_⟩, hplace⟩
      · rw [hWe e he]
        refine (hW2 e he _).2 ⟨fun n => if n ∈ a.names then pos n else 0, ?_, rfl⟩
        intro n _
        unfold lengthIn
        by_cases h : n ∈ a.names
        · simp only [if_pos h]; exact hp n h
        · simp only [if_neg h]; omega

theorem getVar_setVar {α : Type} (vs : Vars α) (n m : String) (o : Operand α) :
    getVar (setVar vs n o) m = if m = n ∧ (getVar vs n).isOk then .ok o else getVar vs m := by
  unfold getVar setVar
  induction vs with
  | nil => simp [Except.isOk, Except.toBool]
  | cons p vs ih =>
    simp only [List.map_cons, List.find?_cons]
    by_cases hp : p.1 = n
    · by_cases hm : m = n
      · subst hm
        simp [hp, Except.isOk, Except.toBool]
      · have hmn : (n == m) = false := by simpa using fun h => hm h.symm
        have h2 : (p.1 == m) = false := by rw [hp]; exact hmn
        simp only [hp, beq_self_eq_true, if_true, hmn] at ih ⊢
        rw [ih]
        simp [hm]
    · have hpn : (p.1 == n) = false := by simpa using hp
      simp only [hpn, Bool.false_eq_true, if_false]
      by_cases hpm : p.1 = m
      · have : m ≠ n := by rintro rfl; exact hp hpm
        simp [hpm, this]
      · have : (p.1 == m) = false := by simpa using hpm
        simp only [this]
        exact ih

theorem fold_getVar {α : Type} (g : (String × Operand α) × Nat → Operand α) (n : String) :
    ∀ (ps : List ((String × Operand α) × Nat)) (vs : Vars α), (∀ p ∈ ps, (getVar vs p.1.1).isOk = true) →
    (ps.map (·.1.1)).Nodup →
    getVar (ps.foldl (fun w p => setVar w p.1.1 (g p)) vs) n = ((ps.find? fun p => p.1.1 == n).elim (getVar vs n) fun p => .ok (g p)) := by
  intro ps
  induction ps with
  | nil => intro vs _ _; rfl
  | cons p ps ih =>
    intro vs h1 h3
    simp only [List.map_cons, List.nodup_cons] at h3
    rw [List.foldl_cons, ih _ ?_ h3.2]
    · rw [List.find?_cons]
      by_cases hp : p.1.1 = n
      · have hnone : (ps.find? fun p => p.1.1 == n) = none := by
          rw [List.find?_eq_none]
          intro q hq hqn
          apply h3.1
          rw [hp]
          exact List.mem_map.2 ⟨q, hq, by simpa using hqn⟩
        have hok := h1 p (by simp)
        rw [hp] at hok
        simp [hnone, hp, getVar_setVar, hok]
      · have : (p.1.1 == n) = false := by simpa using hp
        simp only [this]
        have hn : ¬ (n = p.1.1) := fun h => hp h.symm
        rw [getVar_setVar]
        simp only [hn, false_and, if_false]
    · intro q hq
      rw [getVar_setVar]
      have hne : ¬ (q.1.1 = p.1.1) := by
        intro h
        apply h3.1
        rw [← h]
        exact List.mem_map.2 ⟨q, hq, rfl⟩
      simp only [hne, false_and, if_false]
      exact h1 q (List.mem_cons_of_mem _ hq)

theorem zip_zipIdx_find {α : Type} (vs : Vars α) : ∀ (targets : List String) (ops : List (Operand α)) (k : Nat),
    targets.mapM (getVar vs) = .ok ops →
    (((targets.zip ops).zipIdx k).map (·.1.1) = targets) ∧ (∀ p ∈ (targets.zip ops).zipIdx k, getVar vs p.1.1 = .ok p.1.2) := by
  intro targets
  induction targets with
  | nil =>
    intro ops k h
    cases ops with
    | nil => simp
    | cons _ _ => cases h
  | cons t targets ih =>
    intro ops k h
    rw [List.mapM_cons] at h
    cases h1 : getVar vs t with
    | error e => rw [h1] at h; cases h
    | ok o =>
      rw [h1] at h
      cases h2 : targets.mapM (getVar vs) with
      | error e => rw [h2] at h; cases h
      | ok os =>
        rw [h2] at h
        have : ops = o :: os := by
          injection h with h
          exact h.symm
        subst this
        obtain ⟨h3, h4⟩ := ih os (k + 1) h2
        simp only [List.zip_cons_cons, List.zipIdx_cons, List.map_cons, h3]
        refine ⟨trivial, ?_⟩
        intro p hp
        rcases List.mem_cons.1 hp with rfl | hp
        · exact h1
        · exact h4 p hp

/-- Every variable of the field afterwards. -/
theorem fieldAfter_get {α : Type} (c : Calc α) (vs : Vars α) (targets : List String) (hnd : targets.Nodup) (ops : List (Operand α))
    (hops : targets.mapM (getVar vs) = .ok ops) (rs : List (List (List (String × Nat)))) (n : String) :
    getVar (fieldAfter c vs targets ops rs) n = getVar vs n ∨
      ∃ k o choices, targets[k]? = some n ∧ getVar vs n = .ok o ∧ getVar (fieldAfter c vs targets ops rs) n = .ok (touched c k o choices) := by
  obtain ⟨h1, h2⟩ := zip_zipIdx_find vs targets ops 0 hops
  unfold fieldAfter
  rw [fold_getVar (fun p => touched c p.2 p.1.2 (rs.filterMap (·[p.2]?))) n _ vs
    (fun p hp => by rw [h2 p hp]; rfl) (by rw [h1]; exact hnd)]
  cases hf : ((targets.zip ops).zipIdx.find? fun p => p.1.1 == n) with
  | none => left; rfl
  | some p =>
    right
    have hm := List.mem_of_find?_eq_some hf
    have hn : p.1.1 = n := by simpa using List.find?_some hf
    refine ⟨p.2, p.1.2, _, ?_, ?_, rfl⟩
    · obtain ⟨⟨m, o⟩, k⟩ := p
      have hk := (List.mk_mem_zipIdx_iff_getElem? (l := targets.zip ops) (x := (m, o)) (i := k)).1 hm
      rw [List.getElem?_zip_eq_some] at hk
      simp only at hn ⊢
      rw [← hn]
      exact hk.1
    · rw [← hn]
      exact h2 p hm

end Ocgis.CellCalc
