import Verif.Spec.RecordIter
import Verif.Proofs.Masks
import Verif.Proofs.Collection
import Verif.Proofs.ScatterGather
/-!
# Lemmas
-/
namespace Ocgis.Props
open Ocgis Ocgis.RecordIter Ocgis.Spec Ocgis.Collection Ocgis.Masks

theorem Dict.get?_set {α : Type} (d : Dict α) (k : String) (x : α) (j : String) :
    Dict.get? (Dict.set d k x) j = if j = k then some x else Dict.get? d j := by
  induction d with
  | nil => by_cases h : j = k
           · subst h; simp [Dict.set, Dict.has, Dict.get?]
           · have h' : ¬ k = j := fun e => h e.symm
             simp [Dict.set, Dict.has, Dict.get?, h, h']
  | cons p d ih =>
    obtain ⟨n, y⟩ := p
    by_cases hh : Dict.has ((n, y) :: d) k = true
    · simp only [Dict.set, hh, if_true]
      clear ih
      have key : ∀ (l : List (String × α)), Dict.get? (l.map fun kv => if kv.1 = k then (k, x) else kv) j
          = if j = k then (if Dict.has l k then some x else none) else Dict.get? l j := by
        intro l
        induction l with
        | nil => by_cases h : j = k <;> simp [Dict.get?, Dict.has, h]
        | cons q l ih =>
          obtain ⟨a, b⟩ := q
          simp only [Dict.get?, Dict.has] at ih ⊢
          simp only [List.map_cons, List.find?_cons, List.any_cons]
          by_cases ha : a = k
          · subst ha
            by_cases hj : j = a
            · subst hj; simp
            · have hj' : ¬ a = j := fun e => hj e.symm
              simp only [if_true, beq_eq_false_iff_ne.2 hj', if_neg hj]
              rw [ih, if_neg hj]
          · simp only [if_neg ha, beq_eq_false_iff_ne.2 ha, Bool.false_or]
            by_cases hj : j = a
            · subst hj; simp [ha]
            · have hj' : ¬ a = j := fun e => hj e.symm
              simp only [beq_eq_false_iff_ne.2 hj']
              exact ih
      have := key ((n, y) :: d)
      rw [hh] at this
      simpa using this
    · have hh' : Dict.has ((n, y) :: d) k = false := by simpa using hh
      simp only [Dict.set, hh', Bool.false_eq_true, if_false]
      simp only [Dict.get?, List.find?_append]
      by_cases hj : j = k
      · subst hj
        have : List.find? (fun kv => kv.1 == j) ((n, y) :: d) = none := by
          rw [List.find?_eq_none]
          intro z hz
          simp only [Dict.has, List.any_eq_false] at hh'
          exact hh' z hz
        rw [this]; simp
      · have hj' : ¬ k = j := fun e => hj e.symm
        simp [hj, hj']

theorem Dict.get?_erase {α : Type} (d : Dict α) (k j : String) :
    Dict.get? (Dict.erase d k) j = if j = k then none else Dict.get? d j := by
  induction d with
  | nil => simp [Dict.erase, Dict.get?]
  | cons p d ih =>
    obtain ⟨n, y⟩ := p
    simp only [Dict.erase, Dict.get?] at ih ⊢
    by_cases hn : n = k
    · subst hn
      simp only [List.filter_cons, bne_self_eq_false, Bool.false_eq_true, if_false]
      rw [ih]
      by_cases hj : j = n
      · simp [hj]
      · have hj' : ¬ n = j := fun e => hj e.symm
        simp [hj, hj']
    · have : (n != k) = true := by simpa using hn
      simp only [List.filter_cons, this, if_true, List.find?_cons]
      by_cases hj : j = n
      · subst hj; simp [hn]
      · have hj' : ¬ n = j := fun e => hj e.symm
        simp only [beq_eq_false_iff_ne.2 hj']
        exact ih

theorem foldl_set_get {α : Type} (ps : List (String × α)) (d : Dict α) (k : String) :
    (∀ x, (∀ p ∈ ps, p.1 = k → p.2 = x) → (∃ p ∈ ps, p.1 = k) →
      Dict.get? (ps.foldl (fun r p => Dict.set r p.1 p.2) d) k = some x)
    ∧ ((∀ p ∈ ps, p.1 ≠ k) → Dict.get? (ps.foldl (fun r p => Dict.set r p.1 p.2) d) k = Dict.get? d k) := by
  induction ps generalizing d with
  | nil => simp
  | cons p ps ih =>
    constructor
    · intro x h1 h2
      rw [List.foldl_cons]
      by_cases h : ∃ q ∈ ps, q.1 = k
      · exact (ih _).1 x (fun q hq => h1 q (by simp [hq])) h
      · rw [(ih _).2 (fun q hq e => h ⟨q, hq, e⟩), Dict.get?_set]
        obtain ⟨q, hq, he⟩ := h2
        rcases List.mem_cons.1 hq with rfl | hq
        · rw [if_pos he.symm, h1 q (by simp) he]
        · exact absurd ⟨q, hq, he⟩ h
    · intro h
      rw [List.foldl_cons, (ih _).2 (fun q hq => h q (by simp [hq])), Dict.get?_set,
        if_neg (fun e => h p (by simp) e.symm)]

theorem allIdx_sorted (shape : List Nat) : (allIdx shape).Pairwise (· < ·) := by
  induction shape with
  | nil => simp [allIdx]
  | cons n ns ih =>
    rw [allIdx, List.pairwise_flatMap]
    constructor
    · intro i _
      rw [List.pairwise_map]
      exact ih.imp fun h => List.Lex.cons h
    · refine List.pairwise_lt_range.imp ?_
      intro i j hij a ha b hb
      obtain ⟨r, _, rfl⟩ := List.mem_map.1 ha
      obtain ⟨s, _, rfl⟩ := List.mem_map.1 hb
      exact List.Lex.rel hij

theorem inShape_of (shape idx : List Nat) (h : IdxIn shape idx) : inShape shape idx = true := by
  obtain ⟨h1, h2⟩ := h
  rw [inShape, Bool.and_eq_true]
  refine ⟨by simpa using h1, ?_⟩
  rw [List.all_eq_true]
  intro p hp
  obtain ⟨k, hk, rfl⟩ := List.mem_iff_getElem.1 hp
  have hk1 : k < shape.length := by simp at hk; omega
  have hk2 : k < idx.length := by omega
  have := h2 k hk1
  simp only [List.getElem_zip, decide_eq_true_eq]
  simpa [List.getD_eq_getElem?_getD, List.getElem?_eq_getElem hk1, List.getElem?_eq_getElem hk2] using this

theorem indexAt_self {α : Type} (size : String → Nat) (lead v : Var α) (h : Sized size lead) (hd : v.dims = lead.dims)
    (idx : List Nat) (hi : IdxIn lead.shape idx) : indexAt lead v idx = idx := by
  have hl : idx.length = lead.dims.length := by rw [hi.1, h.1, List.length_map]
  apply List.ext_getElem
  · simp [indexAt, hd, hl]
  · intro k h1 h2
    simp only [indexAt, List.getElem_map]
    have hk : k < lead.dims.length := by omega
    have : v.dims[k]'(by rw [hd]; exact hk) = lead.dims[k] := by simp [hd]
    rw [this]
    have hix : lead.dims.idxOf lead.dims[k] = k := h.2.idxOf_getElem k hk
    rw [hix, List.getD_eq_getElem?_getD, List.getElem?_eq_getElem h2]; rfl

theorem indexAt_in {α : Type} (size : String → Nat) (lead v : Var α) (h : Sized size lead) (hv : Sized size v)
    (hs : ∀ d ∈ v.dims, d ∈ lead.dims) (idx : List Nat) (hi : IdxIn lead.shape idx) :
    IdxIn v.shape (indexAt lead v idx) := by
  refine ⟨by simp [indexAt, hv.1], ?_⟩
  intro k hk
  rw [hv.1, List.length_map] at hk
  have e1 : (indexAt lead v idx).getD k 0 = idx.getD (lead.dims.idxOf v.dims[k]) 0 := by
    simp [indexAt, List.getD_eq_getElem?_getD, List.getElem?_eq_getElem hk]
  have e2 : v.shape.getD k 0 = size v.dims[k] := by
    simp [hv.1, List.getD_eq_getElem?_getD, List.getElem?_eq_getElem hk]
  have hm := hs v.dims[k] (List.getElem_mem hk)
  have hlt := List.idxOf_lt_length_iff.2 hm
  have := hi.2 (lead.dims.idxOf v.dims[k]) (by rw [h.1, List.length_map]; exact hlt)
  rw [e1, e2]
  have e3 : lead.shape.getD (lead.dims.idxOf v.dims[k]) 0 = size v.dims[k] := by
    rw [h.1]
    simp [List.getD_eq_getElem?_getD, List.getElem?_eq_getElem hlt]
  rwa [e3] at this

theorem masked_iff {α : Type} (v : Var α) (idx : List Nat) : maskedAt v idx = true ↔ MaskedAt v idx := by
  cases hm : v.mask <;> simp [maskedAt, MaskedAt, hm]

theorem shown_shows {α : Type} (f : It α) (idx : List Nat) : Shows f idx (.data (shown f.clobber f.var idx)) := by
  constructor
  · rintro ⟨h1, h2⟩
    have := (masked_iff f.var idx).2 h1
    simp [shown, this, h2]
  · intro h
    have : ¬ ((maskedAt f.var idx && f.clobber) = true) := by
      rw [Bool.and_eq_true, masked_iff]; exact h
    simp [shown, this]

/-- The follower as attached to the lead. -/
def attached {α : Type} (lead f : It α) : It α :=
  if f.var.dims = lead.var.dims then f
  else { f with remap := some (f.var.dims.map lead.var.dims.idxOf), shape := lead.shape }

theorem attached_piece {α : Type} (lead f : It α) (idx : List Nat) : piece (attached lead f) idx = piece f idx := by
  rw [attached]; split <;> rfl

theorem attached_var {α : Type} (lead f : It α) : (attached lead f).var = f.var := by
  rw [attached]; split <;> rfl

theorem attach_ok {α : Type} (lead f : It α) (fs : List (Tree α)) (h : ∀ d ∈ f.var.dims, d ∈ lead.var.dims) :
    attach lead (.mk f fs) = .ok (.mk (attached lead f) fs) := by
  simp only [attach, attached]
  rw [if_pos]
  rw [List.all_eq_true]; intro d hd; simpa using h d hd

theorem attached_pieces {α : Type} (size : String → Nat) (lead f : It α) (hl : Leads size lead)
    (hf : Follows size lead f) :
    pieces (attached lead f)
      = .ok ((allIdx lead.var.shape).map fun idx => piece f (indexAt lead.var f.var idx)) := by
  have hshape : (attached lead f).shape = lead.var.shape := by
    rw [attached]
    split
    · next h => rw [(hf.order h).2, hf.sized.1, h, ← hl.sized.1]
    · exact hl.shape
  rw [pieces, hshape]
  apply Ocgis.Mpi.mapM_ok
  intro idx hidx
  have hin := (mem_allIdx lead.var.shape idx).1 hidx
  have hpick : pick (attached lead f).remap idx = indexAt lead.var f.var idx := by
    rw [attached]
    split
    · next h => rw [(hf.order h).1, indexAt_self size lead.var f.var hl.sized h idx hin]; rfl
    · simp only [RecordIter.pick, indexAt, List.map_map]; rfl
  rw [hpick, attached_var, inShape_of _ _ (indexAt_in size lead.var f.var hl.sized hf.sized hf.subset idx hin), if_pos rfl,
    attached_piece]

theorem lead_pieces {α : Type} (size : String → Nat) (lead : It α) (hl : Leads size lead) :
    pieces lead = .ok ((allIdx lead.var.shape).map fun idx => piece lead (indexAt lead.var lead.var idx)) := by
  have := attached_pieces size lead lead hl ⟨hl.plain, hl.sized, fun _ h => h, fun _ => ⟨hl.remap, hl.shape⟩⟩
  rw [attached, if_pos rfl] at this
  exact this

theorem zipAll_map {β γ δ : Type} (L : List γ) (g : δ → γ → β) : ∀ (fs : List δ), fs ≠ [] →
    zipAll (fs.map fun f => L.map (g f)) = L.map fun x => fs.map fun f => g f x
  | [], h => absurd rfl h
  | [f], _ => by simp [zipAll]
  | f :: f' :: fs, _ => by
    have ih := zipAll_map L g (f' :: fs) (by simp)
    simp only [List.map_cons] at ih ⊢
    rw [zipAll, ih]
    · clear ih
      induction L with
      | nil => rfl
      | cons x L ihL => simp [ihL]
    · simp

/-- The pairs of a piece that is not skipped. -/
def pairsOf {α : Type} (f : It α) (idx : List Nat) : List (String × Cell α) :=
  ((f.repeaters.getD []).map fun r => (r.1, Cell.data (some r.2))) ++ [(f.var.name, .data (shown f.clobber f.var idx))]

theorem collect_pairs {α : Type} (pss : List (List (String × Cell α))) (r : Row α) :
    collect (pss.map Piece.pairs) r = .ok (pss.flatten.foldl (fun r p => Dict.set r p.1 p.2) r) := by
  induction pss generalizing r with
  | nil => rfl
  | cons ps pss ih => rw [List.map_cons, collect, ih, List.flatten_cons, List.foldl_append]

/-- An iterator asks for the record to be skipped. -/
def asksSkip {α : Type} (f : It α) (idx : List Nat) : Bool :=
  !f.allowMasked && maskedAt f.var idx && decide (f.primaryMask = f.var.name)

theorem piece_eq {α : Type} (f : It α) (hf : f.formatter = none) (idx : List Nat) :
    piece f idx = if asksSkip f idx then .skip else .pairs (pairsOf f idx) := by
  rw [piece, asksSkip]
  split <;> simp [pairsOf, formatted, hf]

theorem any_skip {α : Type} (its : List (It α)) (hf : ∀ f ∈ its, f.formatter = none) (at_ : It α → List Nat) :
    (its.map fun f => piece f (at_ f)).any isSkip = its.any fun f => asksSkip f (at_ f) := by
  induction its with
  | nil => rfl
  | cons f its ih =>
    rw [List.map_cons, List.any_cons, List.any_cons, ih (fun g hg => hf g (by simp [hg])),
      piece_eq f (hf f (by simp))]
    cases asksSkip f (at_ f) <;> rfl

/-- The dictionary of a record that is not left out. -/
def recordRow {α : Type} (lead : It α) (its : List (It α)) (idx : List Nat) : Row α :=
  ((its.map fun f => pairsOf f (indexAt lead.var f.var idx)).flatten).foldl (fun r p => Dict.set r p.1 p.2) []

theorem record_eq {α : Type} (lead : It α) (its : List (It α)) (hf : ∀ f ∈ its, f.formatter = none)
    (hskip : lead.allowMasked = true → ∀ f ∈ its, f.allowMasked = true) (idx : List Nat) :
    record lead (its.map fun f => piece f (indexAt lead.var f.var idx))
      = .ok (if (!lead.allowMasked && its.any fun f => asksSkip f (indexAt lead.var f.var idx)) = true then none
        else some (recordRow lead its idx)) := by
  rw [record, any_skip its hf]
  split
  · next h => rfl
  · next h =>
    have hno : ∀ f ∈ its, asksSkip f (indexAt lead.var f.var idx) = false := by
      intro f hfm
      cases hl : lead.allowMasked with
      | true => simp [asksSkip, hskip hl f hfm]
      | false =>
        rw [hl] at h
        cases hc : asksSkip f (indexAt lead.var f.var idx) with
        | false => rfl
        | true =>
          exfalso; apply h
          simp only [Bool.not_false, Bool.true_and]
          exact List.any_eq_true.2 ⟨f, hfm, hc⟩
    have : (its.map fun f => piece f (indexAt lead.var f.var idx))
        = (its.map fun f => pairsOf f (indexAt lead.var f.var idx)).map Piece.pairs := by
      rw [List.map_map]
      apply List.map_congr_left
      intro f hfm
      rw [piece_eq f (hf f hfm), hno f hfm]; rfl
    rw [this, collect_pairs]; rfl

theorem omitted_iff {α : Type} (lead : It α) (its : List (It α)) (idx : List Nat) :
    (!lead.allowMasked && its.any fun f => asksSkip f (indexAt lead.var f.var idx)) = true ↔ Omitted lead its idx := by
  rw [Bool.and_eq_true, List.any_eq_true]
  simp only [Omitted, asksSkip, Bool.and_eq_true, Bool.not_eq_true', masked_iff, decide_eq_true_eq]
  constructor
  · rintro ⟨h, f, hf, ⟨h1, h2⟩, h3⟩; exact ⟨h, f, hf, h1, h3, h2⟩
  · rintro ⟨h, f, hf, h1, h3, h2⟩; exact ⟨h, f, hf, ⟨h1, h2⟩, h3⟩

theorem mem_pairs {α : Type} (lead : It α) (its : List (It α)) (idx : List Nat) (p : String × Cell α) :
    p ∈ (its.map fun f => pairsOf f (indexAt lead.var f.var idx)).flatten ↔
      ∃ f ∈ its, (∃ q ∈ f.repeaters.getD [], p = (q.1, Cell.data (some q.2)))
        ∨ p = (f.var.name, .data (shown f.clobber f.var (indexAt lead.var f.var idx))) := by
  simp only [List.mem_flatten, List.mem_map]
  constructor
  · rintro ⟨l, ⟨f, hf, rfl⟩, hp⟩
    rw [pairsOf, List.mem_append] at hp
    refine ⟨f, hf, ?_⟩
    rcases hp with hp | hp
    · obtain ⟨q, hq, rfl⟩ := List.mem_map.1 hp; exact .inl ⟨q, hq, rfl⟩
    · exact .inr (by simpa using hp)
  · rintro ⟨f, hf, hp⟩
    refine ⟨_, ⟨f, hf, rfl⟩, ?_⟩
    rw [pairsOf, List.mem_append]
    rcases hp with ⟨q, hq, rfl⟩ | rfl
    · exact .inl (List.mem_map.2 ⟨q, hq, rfl⟩)
    · exact .inr (by simp)

theorem names_unique {α : Type} (its : List (It α)) (h : (its.map fun f => f.var.name).Nodup) (f g : It α)
    (hf : f ∈ its) (hg : g ∈ its) (e : f.var.name = g.var.name) : f = g := by
  induction its with
  | nil => simp at hf
  | cons a its ih =>
    rw [List.map_cons, List.nodup_cons] at h
    rcases List.mem_cons.1 hf with h1 | h1 <;> rcases List.mem_cons.1 hg with h2 | h2
    · rw [h1, h2]
    · rw [h1] at e; exact absurd (List.mem_map.2 ⟨g, h2, e.symm⟩) h.1
    · rw [h2] at e; exact absurd (List.mem_map.2 ⟨f, h1, e⟩) h.1
    · exact ih h.2 h1 h2

theorem recordRow_rowAt {α : Type} (lead : It α) (its : List (It α)) (hc : Columns its) (idx : List Nat) :
    RowAt lead its idx (recordRow lead its idx) := by
  refine ⟨?_, ?_, ?_⟩
  · intro f hf
    refine ⟨_, ?_, shown_shows f _⟩
    apply (foldl_set_get _ _ _).1
    · intro p hp he
      obtain ⟨g, hg, ⟨q, hq, rfl⟩ | rfl⟩ := (mem_pairs lead its idx p).1 hp
      · exact absurd he (hc.apart g hg q hq f hf)
      · have := names_unique its hc.names g f hg hf he
        subst this; rfl
    · exact ⟨_, (mem_pairs lead its idx _).2 ⟨f, hf, .inr rfl⟩, rfl⟩
  · intro f hf q hq
    apply (foldl_set_get _ _ _).1
    · intro p hp he
      obtain ⟨g, hg, ⟨q', hq', rfl⟩ | rfl⟩ := (mem_pairs lead its idx p).1 hp
      · show Cell.data (some q'.2) = _
        rw [hc.same g hg f hf q' hq' q hq he]
      · exact absurd he.symm (hc.apart f hf q hq g hg)
    · exact ⟨_, (mem_pairs lead its idx _).2 ⟨f, hf, .inl ⟨q, hq, rfl⟩⟩, rfl⟩
  · intro k c h
    by_cases hk : ∃ p ∈ (its.map fun f => pairsOf f (indexAt lead.var f.var idx)).flatten, p.1 = k
    · obtain ⟨p, hp, rfl⟩ := hk
      obtain ⟨g, hg, ⟨q, hq, rfl⟩ | rfl⟩ := (mem_pairs lead its idx p).1 hp
      · exact .inr ⟨g, hg, q, hq, rfl⟩
      · exact .inl ⟨g, hg, rfl⟩
    · rw [recordRow, (foldl_set_get _ _ _).2 (fun p hp e => hk ⟨p, hp, e⟩)] at h
      simp [Dict.get?] at h

theorem mkIterator_ok {α : Type} (lead : It α) (args : List (Arg α)) (melted : Option (List String))
    (h : ∀ f ∈ followersOf lead args, ∀ d ∈ f.var.dims, d ∈ lead.var.dims) :
    ∃ fs : List (Tree α), mkIterator lead (some args) melted = .ok (.mk lead fs)
      ∧ fs.map Tree.it = (followersOf lead args).map (attached lead) := by
  have key : ∀ (l : List (Arg α)), (∀ a ∈ l, ∀ d ∈ (argTree lead a).it.var.dims, d ∈ lead.var.dims) →
      ∃ fs : List (Tree α), l.mapM (fun a => attach lead (argTree lead a)) = .ok fs
        ∧ fs.map Tree.it = l.map fun a => attached lead (argTree lead a).it := by
    intro l
    induction l with
    | nil => intro _; exact ⟨[], rfl, rfl⟩
    | cons a l ih =>
      intro hl
      obtain ⟨fs, h1, h2⟩ := ih (fun b hb => hl b (by simp [hb]))
      cases ht : argTree lead a with
      | mk f gs =>
        have ha := attach_ok lead f gs (by have := hl a (by simp); rw [ht] at this; exact this)
        refine ⟨.mk (attached lead f) gs :: fs, ?_, ?_⟩
        · rw [List.mapM_cons, ht, ha, h1]; rfl
        · rw [List.map_cons, List.map_cons, h2, ht]; rfl
  obtain ⟨fs, h1, h2⟩ := key (flattenArgs args) (by
    intro a ha; exact h _ (List.mem_map.2 ⟨a, ha, rfl⟩))
  refine ⟨fs, by rw [mkIterator, h1], ?_⟩
  rw [h2, followersOf, List.map_map]; rfl

theorem members_pieces {α : Type} (size : String → Nat) (lead : It α) (hl : Leads size lead) (fs : List (It α))
    (hf : ∀ f ∈ fs, Follows size lead f) :
    (lead :: fs.map (attached lead)).mapM pieces
      = .ok ((lead :: fs).map fun f => (allIdx lead.var.shape).map fun idx => piece f (indexAt lead.var f.var idx)) := by
  have key : ∀ fs : List (It α), (∀ f ∈ fs, Follows size lead f) → (fs.map (attached lead)).mapM pieces
      = .ok (fs.map fun f => (allIdx lead.var.shape).map fun idx => piece f (indexAt lead.var f.var idx)) := by
    intro fs
    induction fs with
    | nil => intro _; rfl
    | cons f fs ih =>
      intro h
      rw [List.map_cons, List.mapM_cons, attached_pieces size lead f hl (h f (by simp)),
        ih (fun g hg => h g (by simp [hg]))]
      rfl
  rw [List.mapM_cons, lead_pieces size lead hl, key fs hf]; rfl

/-- The positions kept. -/
def kept {α : Type} (lead : It α) (its : List (It α)) : List (List Nat) :=
  (allIdx lead.var.shape).filter fun idx =>
    !(!lead.allowMasked && its.any fun f => asksSkip f (indexAt lead.var f.var idx))

theorem kept_positions {α : Type} (lead : It α) (its : List (It α)) : Positions lead its (kept lead its) := by
  constructor
  · intro idx
    rw [kept, List.mem_filter, mem_allIdx, ← omitted_iff, Bool.not_eq_true', Bool.not_eq_true]
  · exact (allIdx_sorted _).filter _

theorem filterMap_if {β γ : Type} (L : List β) (p : β → Bool) (g : β → γ) :
    (L.map fun x => if p x = true then none else some (g x)).filterMap id = (L.filter fun x => !p x).map g := by
  induction L with
  | nil => rfl
  | cons x L ih =>
    cases h : p x <;> simp [h, ih]

theorem rows_general {α : Type} (size : String → Nat) (lead : It α) (fs : List (Tree α)) (its : List (It α))
    (hfs : fs.map Tree.it = its.map (attached lead)) (hl : Leads size lead)
    (hf : ∀ f ∈ its, Follows size lead f)
    (hskip : lead.allowMasked = true → ∀ f ∈ its, f.allowMasked = true)
    (melted : Option (List String)) (reps : String → List (String × α)) :
    rows (.mk lead fs) melted reps =
      match ((kept lead (lead :: its)).map (recordRow lead (lead :: its))).mapM (emit (!fs.isEmpty) melted reps) with
      | .error e => .error e
      | .ok out => .ok out.flatten := by
  have hz := zipAll_map (allIdx lead.var.shape) (fun (f : It α) idx => piece f (indexAt lead.var f.var idx)) (lead :: its)
    (by simp)
  have hr : ((allIdx lead.var.shape).map fun x => (lead :: its).map fun f => piece f (indexAt lead.var f.var x)).mapM (record lead)
      = .ok ((allIdx lead.var.shape).map fun idx =>
        if (!lead.allowMasked && (lead :: its).any fun f => asksSkip f (indexAt lead.var f.var idx)) = true then none
        else some (recordRow lead (lead :: its) idx)) := by
    have := Ocgis.Mpi.mapM_ok (allIdx lead.var.shape)
      (fun idx => record lead ((lead :: its).map fun f => piece f (indexAt lead.var f.var idx))) _
      (fun idx _ => record_eq lead (lead :: its) (by
        intro f hm
        rcases List.mem_cons.1 hm with rfl | hm
        · exact hl.plain
        · exact (hf f hm).plain) (by
        intro ha f hm
        rcases List.mem_cons.1 hm with rfl | hm
        · exact ha
        · exact hskip ha f hm) idx)
    rw [List.mapM_map]; exact this
  simp only [rows]
  rw [hfs, members_pieces size lead hl its hf]
  simp only
  rw [hz, hr]
  simp only
  rw [filterMap_if]
  rfl

theorem followersOf_vars {α : Type} (lead : It α) (vs : List (Var α)) :
    followersOf lead (vs.map .var) = vs.map fun v => mkIt v lead.allowMasked (some lead.primaryMask) none true := by
  induction vs with
  | nil => rfl
  | cons v vs ih =>
    simp only [followersOf, flattenArgs] at ih ⊢
    simp only [List.map_cons, List.flatMap_cons, List.singleton_append, ih]
    rfl

theorem popAll_ok {α : Type} (ms : List String) (hnd : ms.Nodup) (r : Row α) (get : String → Cell α)
    (h : ∀ m ∈ ms, Dict.get? r m = some (get m)) :
    ∃ r', popAll ms r = .ok (ms.map get, r')
      ∧ (∀ m ∈ ms, Dict.get? r' m = none) ∧ ∀ n, n ∉ ms → Dict.get? r' n = Dict.get? r n := by
  induction ms generalizing r with
  | nil => exact ⟨r, rfl, by simp, fun _ _ => rfl⟩
  | cons m ms ih =>
    rw [List.nodup_cons] at hnd
    obtain ⟨r', h1, h2, h3⟩ := ih hnd.2 (Dict.erase r m) (by
      intro n hn
      rw [Dict.get?_erase, if_neg (by rintro rfl; exact hnd.1 hn)]
      exact h n (by simp [hn]))
    refine ⟨r', by simp only [popAll, h m (by simp), h1, List.map_cons], ?_, ?_⟩
    · intro n hn
      rcases List.mem_cons.1 hn with rfl | hn
      · rw [h3 n hnd.1, Dict.get?_erase, if_pos rfl]
      · exact h2 n hn
    · intro n hn
      simp only [List.mem_cons, not_or] at hn
      rw [h3 n hn.2, Dict.get?_erase, if_neg hn.1]

theorem meltRows_spec {α : Type} (reps : String → List (String × α)) (l : List (String × Cell α)) (r : Row α) :
    (meltRows reps l r).length = l.length ∧
    ∀ (j : Nat) m x, l[j]? = some (m, x) → ∃ row, (meltRows reps l r)[j]? = some row
      ∧ Dict.get? row "VARIABLE" = some (.text m) ∧ Dict.get? row "VALUE" = some x
      ∧ ∀ k, k ≠ "VARIABLE" → k ≠ "VALUE" → (∀ q ∈ l, ∀ p ∈ reps q.1, p.1 ≠ k) → Dict.get? row k = Dict.get? r k := by
  induction l generalizing r with
  | nil => exact ⟨rfl, by simp⟩
  | cons q l ih =>
    obtain ⟨m0, x0⟩ := q
    obtain ⟨h1, h2⟩ := ih (Dict.set (Dict.set ((reps m0).foldl (fun r p => Dict.set r p.1 (Cell.data (some p.2))) r)
      "VARIABLE" (.text m0)) "VALUE" x0)
    have hbase : ∀ k, k ≠ "VARIABLE" → k ≠ "VALUE" → (∀ p ∈ reps m0, p.1 ≠ k) →
        Dict.get? (Dict.set (Dict.set ((reps m0).foldl (fun r p => Dict.set r p.1 (Cell.data (some p.2))) r)
          "VARIABLE" (.text m0)) "VALUE" x0) k = Dict.get? r k := by
      intro k hk1 hk2 hp
      rw [Dict.get?_set, if_neg hk2, Dict.get?_set, if_neg hk1]
      have := (foldl_set_get ((reps m0).map fun p => (p.1, Cell.data (some p.2))) r k).2 (by
        intro p hpm
        obtain ⟨q, hq, rfl⟩ := List.mem_map.1 hpm
        exact hp q hq)
      rw [List.foldl_map] at this
      exact this
    refine ⟨by simp [meltRows, h1], ?_⟩
    intro j m x hj
    cases j with
    | zero =>
      simp only [List.getElem?_cons_zero, Option.some.injEq, Prod.mk.injEq] at hj
      obtain ⟨rfl, rfl⟩ := hj
      refine ⟨_, rfl, ?_, ?_, fun k hk1 hk2 hp => hbase k hk1 hk2 (hp (m0, x0) (by simp))⟩
      · rw [Dict.get?_set, if_neg (by decide), Dict.get?_set, if_pos rfl]
      · rw [Dict.get?_set, if_pos rfl]
    | succ j =>
      rw [List.getElem?_cons_succ] at hj
      obtain ⟨row, g1, g2, g3, g4⟩ := h2 j m x hj
      refine ⟨row, by simpa [meltRows] using g1, g2, g3, ?_⟩
      intro k hk1 hk2 hp
      rw [g4 k hk1 hk2 (fun q hq => hp q (by simp [hq])), hbase k hk1 hk2 (hp (m0, x0) (by simp))]

theorem emit_melted {α : Type} (lead : It α) (its : List (It α)) (hc : Columns its) (ms : List String) (hnd : ms.Nodup)
    (hms : ∀ m ∈ ms, ∃ f ∈ its, f.var.name = m) (reps : String → List (String × α))
    (hheads : ∀ f ∈ its, f.var.name ≠ "VARIABLE" ∧ f.var.name ≠ "VALUE")
    (hreps : ∀ m ∈ ms, ∀ p ∈ reps m, ∀ f ∈ its, p.1 ≠ f.var.name) (idx : List Nat) :
    ∃ g, emit true (some ms) reps (recordRow lead its idx) = .ok g ∧ g.length = ms.length
      ∧ ∀ (j : Nat) m, ms[j]? = some m → ∃ r, g[j]? = some r ∧ MeltedAt lead its ms m idx r := by
  have hra := recordRow_rowAt lead its hc idx
  obtain ⟨r', h1, h2, h3⟩ := popAll_ok ms hnd (recordRow lead its idx)
    (fun m => (Dict.get? (recordRow lead its idx) m).getD (.text "")) (by
      intro m hm
      obtain ⟨f, hf, rfl⟩ := hms m hm
      obtain ⟨c, hg, _⟩ := hra.values f hf
      rw [hg]; rfl)
  obtain ⟨k1, k2⟩ := meltRows_spec reps (ms.zip (ms.map fun m => (Dict.get? (recordRow lead its idx) m).getD (.text ""))) r'
  refine ⟨_, by simp only [emit, if_true, h1]; rfl, by rw [k1]; simp, ?_⟩
  intro j m hj
  obtain ⟨row, g1, g2, g3, g4⟩ := k2 j m ((Dict.get? (recordRow lead its idx) m).getD (.text "")) (by
    rw [List.getElem?_zip_eq_some]; exact ⟨hj, by rw [List.getElem?_map, hj]; rfl⟩)
  have hkeys : ∀ q ∈ ms.zip (ms.map fun m => (Dict.get? (recordRow lead its idx) m).getD (.text "")), q.1 ∈ ms :=
    fun q hq => (List.of_mem_zip hq).1
  refine ⟨row, g1, ⟨g2, ?_, ?_, ?_⟩⟩
  · intro f hf hfm
    obtain ⟨c, hg, hsh⟩ := hra.values f hf
    refine ⟨c, ?_, hsh⟩
    rw [g3, ← hfm, hg]; rfl
  · intro f hf hfm
    obtain ⟨c, hg, hsh⟩ := hra.values f hf
    refine ⟨c, ?_, hsh⟩
    rw [g4 _ (hheads f hf).1 (hheads f hf).2 (fun q hq p hp => hreps q.1 (hkeys q hq) p hp f hf), h3 _ hfm, hg]
  · intro n hn
    obtain ⟨f, hf, rfl⟩ := hms n hn
    rw [g4 _ (hheads f hf).1 (hheads f hf).2 (fun q hq p hp => hreps q.1 (hkeys q hq) p hp f hf), h2 _ hn]

end Ocgis.Props
