import Verif.Model.Geomc
import Verif.Proofs.Indexing
/-!
# Lemmas
-/
namespace Ocgis.Props
open Ocgis Ocgis.Geomc

theorem breakPositions_succ (mbv : Int) (as : List Int) (i : Nat) :
    breakPositions mbv as (i + 1) = (breakPositions mbv as i).map (· + 1) := by
  induction as generalizing i with
  | nil => rfl
  | cons a as ih => simp only [breakPositions]; split <;> simp [ih]

theorem partsFrom_succ {β : Type _} (a : β) (arr : List β) (ws : List Nat) (s : Nat) :
    partsFrom (a :: arr) (s + 1) (ws.map (· + 1)) = partsFrom arr s ws := by
  induction ws generalizing s with
  | nil => rfl
  | cons w ws ih => simp [partsFrom, ih]

def consHead (a : Int) : List (List Int) → List (List Int)
  | [] => []
  | p :: ps => (a :: p) :: ps

theorem partsFrom_zero_succ (a : Int) (arr : List Int) (ws : List Nat) :
    partsFrom (a :: arr) 0 (ws.map (· + 1)) = consHead a (partsFrom arr 0 ws) := by
  cases ws with
  | nil => rfl
  | cons w ws => simp [partsFrom, consHead, partsFrom_succ a arr ws (w + 1)]

theorem iterMultipart_nil (mbv : Int) : iterMultipart [] mbv = [[]] := rfl

theorem iterMultipart_break (mbv : Int) (as : List Int) :
    iterMultipart (mbv :: as) mbv = [] :: iterMultipart as mbv := by
  have h : breakPositions mbv (mbv :: as) 0 ++ [(mbv :: as).length]
      = 0 :: (breakPositions mbv as 0 ++ [as.length]).map (· + 1) := by
    simp [breakPositions, breakPositions_succ mbv as 0]
  rw [iterMultipart, h, partsFrom, partsFrom_succ]; rfl

theorem iterMultipart_keep (mbv a : Int) (as : List Int) (h : a ≠ mbv) :
    iterMultipart (a :: as) mbv = consHead a (iterMultipart as mbv) := by
  have h : breakPositions mbv (a :: as) 0 ++ [(a :: as).length]
      = (breakPositions mbv as 0 ++ [as.length]).map (· + 1) := by
    simp [breakPositions, breakPositions_succ mbv as 0, h]
  rw [iterMultipart, h, partsFrom_zero_succ]; rfl

theorem iterMultipart_ne_nil (mbv : Int) (as : List Int) : iterMultipart as mbv ≠ [] := by
  induction as with
  | nil => simp [iterMultipart_nil]
  | cons a as ih =>
    by_cases h : a = mbv
    · subst h; simp [iterMultipart_break]
    · rw [iterMultipart_keep _ _ _ h]
      cases hp : iterMultipart as mbv with
      | nil => exact absurd hp ih
      | cons p ps => simp [consHead]

theorem intercalate_consHead (sep : List Int) (a : Int) (ps : List (List Int)) (h : ps ≠ []) :
    List.intercalate sep (consHead a ps) = a :: List.intercalate sep ps := by
  cases ps with
  | nil => exact absurd rfl h
  | cons p ps => cases ps <;> simp [consHead, List.intercalate]

theorem intercalate_cons (sep : List Int) (p : List Int) (ps : List (List Int)) (h : ps ≠ []) :
    List.intercalate sep (p :: ps) = p ++ sep ++ List.intercalate sep ps := by
  cases ps with
  | nil => exact absurd rfl h
  | cons q ps => simp [List.intercalate]

theorem consHead_length (a : Int) (ps : List (List Int)) : (consHead a ps).length = ps.length := by
  cases ps <;> rfl

theorem iterMultipart_append (mbv : Int) (p as : List Int) (h : mbv ∉ p) :
    iterMultipart (p ++ mbv :: as) mbv = p :: iterMultipart as mbv := by
  induction p with
  | nil => simp [iterMultipart_break]
  | cons a p ih =>
    simp only [List.mem_cons, not_or] at h
    rw [List.cons_append, iterMultipart_keep _ _ _ (fun e => h.1 e.symm), ih h.2]; rfl

theorem iterMultipart_single (mbv : Int) (p : List Int) (h : mbv ∉ p) : iterMultipart p mbv = [p] := by
  induction p with
  | nil => rfl
  | cons a p ih =>
    simp only [List.mem_cons, not_or] at h
    rw [iterMultipart_keep _ _ _ (fun e => h.1 e.symm), ih h.2]; rfl

theorem iterMultipart_intercalate (mbv : Int) (ps : List (List Int)) (hne : ps ≠ [])
    (h : ∀ p ∈ ps, mbv ∉ p) : iterMultipart (List.intercalate [mbv] ps) mbv = ps := by
  induction ps with
  | nil => exact absurd rfl hne
  | cons p ps ih =>
    by_cases hps : ps = []
    · subst hps; simpa [List.intercalate] using iterMultipart_single mbv p (h p (by simp))
    · rw [intercalate_cons _ _ _ hps, List.append_assoc, List.singleton_append,
        iterMultipart_append _ _ _ (h p (by simp)), ih hps (fun q hq => h q (by simp [hq]))]

theorem raggedStart_eq (counts : List Nat) (idx : Nat) : raggedStart counts idx = (counts.take idx).sum := by
  rw [raggedStart]; split
  · next h => subst h; rfl
  · rfl

theorem sum_take_succ (counts : List Nat) (idx n : Nat) (h : counts[idx]? = some n) :
    (counts.take (idx + 1)).sum = (counts.take idx).sum + n := by
  rw [List.take_add_one, h]; simp

theorem sum_take_le (counts : List Nat) (i : Nat) : (counts.take i).sum ≤ counts.sum := by
  conv => rhs; rw [← List.take_append_drop i counts, List.sum_append]
  omega

theorem raggedNodes_eq (counts : List Nat) (flat : List Int) (idx n : Nat) (h : counts[idx]? = some n) :
    raggedNodes counts flat idx = (flat.drop (counts.take idx).sum).take n := by
  rw [raggedNodes, raggedStart_eq, raggedStop, sum_take_succ _ _ _ h]
  congr 1; omega

theorem range_succ_eq (n : Nat) : List.range (n + 1) = 0 :: (List.range n).map (· + 1) := by
  rw [List.range_succ_eq_map]

theorem raggedNodes_cons (n : Nat) (counts : List Nat) (flat : List Int) (idx : Nat) :
    raggedNodes (n :: counts) flat (idx + 1) = raggedNodes counts (flat.drop n) idx := by
  simp only [raggedNodes, raggedStart_eq, raggedStop, List.take_succ_cons, List.sum_cons, List.drop_drop]
  congr 1; omega

theorem ragged_flatten (counts : List Nat) (flat : List Int) (h : counts.sum = flat.length) :
    ((List.range counts.length).map (raggedNodes counts flat)).flatten = flat := by
  induction counts generalizing flat with
  | nil =>
    have : flat = [] := List.length_eq_zero_iff.1 (by simpa using h.symm)
    subst this; rfl
  | cons n counts ih =>
    rw [List.length_cons, range_succ_eq, List.map_cons, List.map_map, List.flatten_cons]
    have h0 : raggedNodes (n :: counts) flat 0 = flat.take n := by
      rw [raggedNodes_eq _ _ 0 n (by simp)]; simp
    have h1 : (List.range counts.length).map (raggedNodes (n :: counts) flat ∘ (· + 1))
        = (List.range counts.length).map (raggedNodes counts (flat.drop n)) := by
      apply List.map_congr_left; intro i _; exact raggedNodes_cons n counts flat i
    rw [h0, h1, ih (flat.drop n) (by simp at h ⊢; omega), List.take_append_drop]

def Stable (si : Int) : Conn → Prop
  | .rows _ => True
  | .ragged _ _ => si ≤ 0

theorem afterRead_stable (si : Int) (c : Conn) (idx : Nat) (ec : List Int) (h : Stable si c) :
    afterRead si c idx ec = c := by
  rw [afterRead]
  split
  · next hs => cases c with
    | rows rs => rfl
    | ragged a b => simp only [Stable] at h; omega
  · rfl

theorem readElement_stable {α : Type _} (si : Int) (mbv : Option Int) (nodes : List α) (c : Conn) (idx : Nat)
    (g : List (List α)) (c' : Conn) (h : Stable si c) (hr : readElement si mbv nodes c idx = .ok (g, c')) :
    c' = c := by
  rw [readElement] at hr
  split at hr
  · simp at hr
  · split at hr
    · simp at hr
    · simp only [Except.ok.injEq, Prod.mk.injEq] at hr
      rw [← hr.2, afterRead_stable _ _ _ _ h]

theorem readLoop_stable {α : Type _} (si : Int) (mbv : Option Int) (nodes : List α) (mask : List Bool)
    (idxs : List Nat) (c c' : Conn) (gs : List (Option (List (List α)))) (h : Stable si c)
    (hr : readLoop si mbv nodes mask idxs c = .ok (gs, c')) : c' = c := by
  induction idxs generalizing gs c' with
  | nil => simp only [readLoop, Except.ok.injEq, Prod.mk.injEq] at hr; exact hr.2.symm
  | cons i is ih =>
    rw [readLoop] at hr
    split at hr
    · split at hr
      · simp at hr
      · next heq => simp only [Except.ok.injEq, Prod.mk.injEq] at hr; rw [← hr.2]; exact ih _ _ heq
    · split at hr
      · simp at hr
      · next hel =>
        have := readElement_stable _ _ _ _ _ _ _ h hel
        subst this
        split at hr
        · simp at hr
        · next heq => simp only [Except.ok.injEq, Prod.mk.injEq] at hr; rw [← hr.2]; exact ih _ _ heq

theorem geomcOverwrite_length (flat : List Int) (start : Nat) (vs : List Int) (h : start + vs.length ≤ flat.length) :
    (overwrite flat start vs).length = flat.length := by
  simp [overwrite]; omega

/-- Elements read so far are shifted, the others are not. -/
def shiftedUpTo (si : Int) (m : Nat) (flat : List Int) : List Int :=
  (flat.take m).map (· - si) ++ flat.drop m

theorem read_shifts {α : Type _} (si : Int) (hsi : 0 < si) (mbv : Option Int) (nodes : List α)
    (counts : List Nat) (flat : List Int) (h : counts.sum = flat.length) (n i : Nat)
    (hn : i + n ≤ counts.length) (gs : List (Option (List (List α)))) (c' : Conn)
    (hr : readLoop si mbv nodes [] (List.range' i n)
      (.ragged counts (shiftedUpTo si (counts.take i).sum flat)) = .ok (gs, c')) :
    c' = .ragged counts (shiftedUpTo si (counts.take (i + n)).sum flat) := by
  induction n generalizing i gs c' with
  | zero => simp only [List.range'_zero, readLoop, Except.ok.injEq, Prod.mk.injEq] at hr; exact hr.2.symm
  | succ n ih =>
    rw [List.range'_succ, readLoop] at hr
    simp only [List.getD_nil, Bool.false_eq_true, if_false] at hr
    split at hr
    · simp at hr
    · next g c1 hel =>
      have hc1 : c1 = .ragged counts (shiftedUpTo si (counts.take (i + 1)).sum flat) := by
        rw [readElement] at hel
        split at hel
        · simp at hel
        · next ec hec =>
          split at hel
          · simp at hel
          · simp only [Except.ok.injEq, Prod.mk.injEq] at hel
            rw [← hel.2, afterRead, if_pos hsi, storeNodes, zeroBased, if_pos hsi]
            have hi : counts[i]? = some counts[i] := List.getElem?_eq_getElem (by omega)
            generalize counts[i] = m at hi
            have hsum := sum_take_succ _ _ _ hi
            have hle := sum_take_le counts (i + 1)
            simp only [elementNodes, Except.ok.injEq] at hec
            rw [raggedNodes_eq _ _ _ _ hi] at hec
            have hlen : ((flat.take (counts.take i).sum).map (· - si)).length = (counts.take i).sum := by
              simp; omega
            have hec' : ec = (flat.drop (counts.take i).sum).take m := by
              rw [← hec, shiftedUpTo, List.drop_append, hlen, List.drop_of_length_le (by omega)]
              simp
            rw [raggedStart_eq, hec', hsum, overwrite]
            congr 1
            have ht : (shiftedUpTo si (counts.take i).sum flat).take (counts.take i).sum
                = (flat.take (counts.take i).sum).map (· - si) := by
              rw [shiftedUpTo, List.take_append, hlen, List.take_of_length_le (by omega)]; simp
            have hl : (((flat.drop (counts.take i).sum).take m).map (· - si)).length = m := by
              simp; omega
            have hd : (shiftedUpTo si (counts.take i).sum flat).drop ((counts.take i).sum + m)
                = flat.drop ((counts.take i).sum + m) := by
              rw [shiftedUpTo, List.drop_append, hlen, List.drop_of_length_le (by omega), List.drop_drop]
              simp; 
            rw [ht, hl, hd, shiftedUpTo, List.take_add, List.map_append]
      subst hc1
      split at hr
      · simp at hr
      · next heq =>
        simp only [Except.ok.injEq, Prod.mk.injEq] at hr
        rw [← hr.2, ih (i + 1) (by omega) _ _ heq, show i + 1 + n = i + (n + 1) by omega]

/-- The numbers `vs` point at the nodes `as`. -/
def Refers {α : Type _} (si : Int) (nodes : List α) : List Int → List α → Prop
  | [], [] => True
  | v :: vs, a :: as => (∃ k : Nat, v = si + k ∧ nodes[k]? = some a) ∧ Refers si nodes vs as
  | _, _ => False

theorem Refers_mono {α : Type _} (si : Int) (nodes extra : List α) (vs : List Int) (as : List α)
    (h : Refers si nodes vs as) : Refers si (nodes ++ extra) vs as := by
  induction vs generalizing as with
  | nil => cases as with
    | nil => trivial
    | cons _ _ => exact h
  | cons v vs ih => cases as with
    | nil => exact h
    | cons a as =>
      obtain ⟨⟨k, h1, h2⟩, h3⟩ := h
      refine ⟨⟨k, h1, ?_⟩, ih as h3⟩
      rw [List.getElem?_append_left (List.getElem?_eq_some_iff.1 h2).1]; exact h2

theorem Refers_take {α : Type _} (si : Int) (nodes : List α) (vs : List Int) (as : List α)
    (h : Refers si nodes vs as) : takeInts nodes (vs.map (· - si)) = .ok as := by
  induction vs generalizing as with
  | nil => cases as with
    | nil => rfl
    | cons _ _ => exact absurd h (by simp [Refers])
  | cons v vs ih => cases as with
    | nil => exact absurd h (by simp [Refers])
    | cons a as =>
      obtain ⟨⟨k, h1, h2⟩, h3⟩ := h
      have ht := ih as h3
      simp only [takeInts] at ht
      simp only [takeInts, List.map_cons, List.mapM_cons, ht]
      have : v - si = (k : Int) := by omega
      rw [this]
      simp [h2, show ¬ ((k : Int) < 0) by omega]
      rfl

theorem Refers_ge {α : Type _} (si : Int) (nodes : List α) (vs : List Int) (as : List α)
    (h : Refers si nodes vs as) : ∀ v ∈ vs, si ≤ v ∧ v < si + nodes.length := by
  induction vs generalizing as with
  | nil => simp
  | cons v vs ih => cases as with
    | nil => exact absurd h (by simp [Refers])
    | cons a as =>
      obtain ⟨⟨k, h1, h2⟩, h3⟩ := h
      have := (List.getElem?_eq_some_iff.1 h2).1
      intro w hw
      rcases List.mem_cons.1 hw with rfl | hw
      · omega
      · exact ih as h3 w hw

/-- What writing achieves: the nodes grow by `extra`, all of whose numbers are used. -/
def Covers {α : Type _} (si : Int) (nodes extra : List α) (vs : List Int) : Prop :=
  ∀ k, nodes.length ≤ k → k < nodes.length + extra.length → (si + (k : Int)) ∈ vs

theorem packRing_spec {α : Type _} [DecidableEq α] (si : Int) (ring nodes : List α) :
    ∃ extra vs, packRing si ring nodes (si + nodes.length)
        = (nodes ++ extra, si + (nodes ++ extra).length, vs)
      ∧ Refers si (nodes ++ extra) vs ring ∧ Covers si nodes extra vs
      ∧ (nodes.Nodup → (nodes ++ extra).Nodup) := by
  induction ring generalizing nodes with
  | nil => exact ⟨[], [], by simp [packRing], trivial, by intro k h1 h2; simp at h2; omega, by simp⟩
  | cons a as ih =>
    rw [packRing]
    cases hf : findNode nodes a with
    | none =>
      have hn : a ∉ nodes := by simpa [findNode] using hf
      obtain ⟨extra, vs, h1, h2, h3, h4⟩ := ih (nodes ++ [a])
      refine ⟨a :: extra, (si + nodes.length) :: vs, ?_, ?_, ?_, ?_⟩
      · simp only [packNode, hf]
        have : si + (nodes.length : Int) + 1 = si + ((nodes ++ [a]).length : Int) := by simp; omega
        rw [this, h1]; simp
      · refine ⟨⟨nodes.length, rfl, by simp⟩, ?_⟩
        simpa using h2
      · intro k hk1 hk2
        by_cases hk : k = nodes.length
        · subst hk; simp
        · exact List.mem_cons_of_mem _ (h3 k (by simp; omega) (by simp at hk2 ⊢; omega))
      · intro hnd
        have := h4 (by rw [List.nodup_append]; refine ⟨hnd, by simp, ?_⟩; intro x hx y hy; simp at hy; subst hy
                       intro e; subst e; exact hn hx)
        simpa using this
    | some k =>
      obtain ⟨extra, vs, h1, h2, h3, h4⟩ := ih nodes
      refine ⟨extra, ((k : Int) + si) :: vs, ?_, ?_, ?_, h4⟩
      · simp only [packNode, hf]; rw [h1]
      · refine ⟨⟨k, by omega, ?_⟩, h2⟩
        have : nodes[k]? = some a := by
          rw [findNode, List.idxOf?_eq_some_iff] at hf
          obtain ⟨h, he, _⟩ := hf
          rw [List.getElem?_eq_getElem h, he]
        rw [List.getElem?_append_left (List.getElem?_eq_some_iff.1 this).1]; exact this
      · intro j hj1 hj2; exact List.mem_cons_of_mem _ (h3 j hj1 hj2)

theorem plain_refers {α : Type _} (si : Int) (pre ring : List α) :
    Refers si (pre ++ ring) ((List.range' pre.length ring.length).map fun (k : Nat) => si + (k : Int)) ring := by
  induction ring generalizing pre with
  | nil => trivial
  | cons a as ih =>
    rw [List.length_cons, List.range'_succ, List.map_cons]
    refine ⟨⟨pre.length, rfl, by simp⟩, ?_⟩
    have := ih (pre ++ [a])
    simpa using this

theorem intRange_eq (si : Int) (n m : Nat) :
    intRange (si + n) (si + n + m) = (List.range' n m).map fun (k : Nat) => si + (k : Int) := by
  rw [intRange, show (si + n + m - (si + (n : Int))).toNat = m by omega, List.range'_eq_map_range, List.map_map]
  apply List.map_congr_left; intro k _; simp; omega

theorem writeRing_spec {α : Type _} [DecidableEq α] (pack : Bool) (si : Int) (ring nodes : List α) :
    ∃ extra vs, writeRing pack si ring nodes (si + nodes.length)
        = (nodes ++ extra, si + (nodes ++ extra).length, vs)
      ∧ Refers si (nodes ++ extra) vs ring ∧ Covers si nodes extra vs
      ∧ (pack = true → nodes.Nodup → (nodes ++ extra).Nodup) := by
  rw [writeRing]
  cases pack with
  | true =>
    obtain ⟨extra, vs, h1, h2, h3, h4⟩ := packRing_spec si ring nodes
    exact ⟨extra, vs, by simpa using h1, h2, h3, fun _ => h4⟩
  | false =>
    refine ⟨ring, _, ?_, plain_refers si nodes ring, ?_, by simp⟩
    · simp only [Bool.false_eq_true, if_false, plainRing, intRange_eq]
      simp; omega
    · intro k h1 h2
      rw [List.mem_map]
      exact ⟨k, by rw [List.mem_range'_1]; omega, rfl⟩

/-- Each number list points at the corresponding ring. -/
def RefersAll {α : Type _} (si : Int) (nodes : List α) : List (List Int) → List (List α) → Prop
  | [], [] => True
  | vs :: vss, r :: rs => Refers si nodes vs r ∧ RefersAll si nodes vss rs
  | _, _ => False

theorem RefersAll_mono {α : Type _} (si : Int) (nodes extra : List α) (vss : List (List Int)) (rs : List (List α))
    (h : RefersAll si nodes vss rs) : RefersAll si (nodes ++ extra) vss rs := by
  induction vss generalizing rs with
  | nil => cases rs with
    | nil => trivial
    | cons _ _ => exact h
  | cons v vs ih => cases rs with
    | nil => exact h
    | cons a as => exact ⟨Refers_mono _ _ _ _ _ h.1, ih _ h.2⟩

theorem RefersAll_length {α : Type _} (si : Int) (nodes : List α) (vss : List (List Int)) (rs : List (List α))
    (h : RefersAll si nodes vss rs) : vss.length = rs.length := by
  induction vss generalizing rs with
  | nil => cases rs with
    | nil => rfl
    | cons _ _ => exact absurd h (by simp [RefersAll])
  | cons v vs ih => cases rs with
    | nil => exact absurd h (by simp [RefersAll])
    | cons a as => simp [ih _ h.2]

theorem RefersAll_take {α : Type _} (si : Int) (nodes : List α) (vss : List (List Int)) (rs : List (List α))
    (h : RefersAll si nodes vss rs) : (vss.map fun vs => vs.map (· - si)).mapM (takeInts nodes) = .ok rs := by
  induction vss generalizing rs with
  | nil => cases rs with
    | nil => rfl
    | cons _ _ => exact absurd h (by simp [RefersAll])
  | cons v vs ih => cases rs with
    | nil => exact absurd h (by simp [RefersAll])
    | cons a as =>
      rw [List.map_cons, List.mapM_cons, Refers_take _ _ _ _ h.1, ih _ h.2]; rfl

theorem RefersAll_ge {α : Type _} (si : Int) (nodes : List α) (vss : List (List Int)) (rs : List (List α))
    (h : RefersAll si nodes vss rs) : ∀ vs ∈ vss, ∀ v ∈ vs, si ≤ v ∧ v < si + nodes.length := by
  induction vss generalizing rs with
  | nil => simp
  | cons v vs ih => cases rs with
    | nil => exact absurd h (by simp [RefersAll])
    | cons a as =>
      intro w hw
      rcases List.mem_cons.1 hw with rfl | hw
      · exact Refers_ge _ _ _ _ h.1
      · exact ih _ h.2 w hw

/-- The row made of the parts: joined with the break value, which also precedes a part that is not first. -/
def rowOf (mbv : Int) (first : Bool) (vss : List (List Int)) : List Int :=
  if first then List.intercalate [mbv] vss else (vss.map fun vs => mbv :: vs).flatten

theorem intercalate_flat (mbv : Int) (vs : List Int) (vss : List (List Int)) :
    List.intercalate [mbv] (vs :: vss) = vs ++ (vss.map fun ws => mbv :: ws).flatten := by
  induction vss generalizing vs with
  | nil => simp [List.intercalate]
  | cons w ws ih => rw [intercalate_cons _ _ _ (by simp), ih w]; simp

theorem writeParts_spec {α : Type _} [DecidableEq α] (pack : Bool) (si mbv : Int) (first : Bool)
    (g : List (List α)) (nodes : List α) :
    ∃ extra vss, writeParts pack si mbv first g nodes (si + nodes.length)
        = (nodes ++ extra, si + (nodes ++ extra).length, rowOf mbv first vss)
      ∧ RefersAll si (nodes ++ extra) vss g ∧ Covers si nodes extra vss.flatten
      ∧ (pack = true → nodes.Nodup → (nodes ++ extra).Nodup) := by
  induction g generalizing nodes first with
  | nil => exact ⟨[], [], by cases first <;> simp [writeParts, rowOf, List.intercalate], trivial,
      by intro k h1 h2; simp at h2; omega, by simp⟩
  | cons ring rings ih =>
    obtain ⟨e1, vs, h1, h2, h3, h4⟩ := writeRing_spec pack si ring nodes
    obtain ⟨e2, vss, g1, g2, g3, g4⟩ := ih false (nodes ++ e1)
    refine ⟨e1 ++ e2, vs :: vss, ?_, ?_, ?_, ?_⟩
    · simp only [writeParts, h1, g1, List.append_assoc]
      congr 2
      cases first
      · simp [breakBefore, rowOf]
      · simp only [breakBefore, rowOf, if_true, List.nil_append, Bool.false_eq_true, if_false]
        rw [intercalate_flat]
    · rw [← List.append_assoc]
      exact ⟨Refers_mono _ _ _ _ _ h2, g2⟩
    · intro k hk1 hk2
      rw [List.flatten_cons, List.mem_append]
      by_cases hk : k < nodes.length + e1.length
      · exact Or.inl (h3 k hk1 hk)
      · exact Or.inr (g3 k (by simp; omega) (by simp at hk2 ⊢; omega))
    · intro hp hn
      rw [← List.append_assoc]; exact g4 hp (h4 hp hn)

/-- One row per geometry, each made of the parts of that geometry. -/
def RowsOf {α : Type _} (si mbv : Int) (nodes : List α) : List (List Int) → List (List (List α)) → Prop
  | [], [] => True
  | row :: rows, g :: gs => (∃ vss, row = List.intercalate [mbv] vss ∧ RefersAll si nodes vss g)
      ∧ RowsOf si mbv nodes rows gs
  | _, _ => False

theorem RowsOf_mono {α : Type _} (si mbv : Int) (nodes extra : List α) (rows : List (List Int))
    (gs : List (List (List α))) (h : RowsOf si mbv nodes rows gs) : RowsOf si mbv (nodes ++ extra) rows gs := by
  induction rows generalizing gs with
  | nil => cases gs with
    | nil => trivial
    | cons _ _ => exact h
  | cons v vs ih => cases gs with
    | nil => exact h
    | cons a as =>
      obtain ⟨⟨vss, h1, h2⟩, h3⟩ := h
      exact ⟨⟨vss, h1, RefersAll_mono _ _ _ _ _ h2⟩, ih _ h3⟩

theorem mem_intercalate (mbv : Int) (vss : List (List Int)) (v : Int) (h : v ∈ vss.flatten) :
    v ∈ List.intercalate [mbv] vss := by
  cases vss with
  | nil => simp at h
  | cons vs vss =>
    rw [intercalate_flat]
    rw [List.flatten_cons, List.mem_append] at h
    rw [List.mem_append]
    refine h.imp id fun h => ?_
    rw [List.mem_flatten] at h ⊢
    obtain ⟨ws, hw, hv⟩ := h
    exact ⟨mbv :: ws, List.mem_map.2 ⟨ws, hw, rfl⟩, List.mem_cons_of_mem _ hv⟩

theorem writeGeoms_spec {α : Type _} [DecidableEq α] (pack : Bool) (si mbv : Int)
    (gs : List (List (List α))) (nodes : List α) :
    ∃ extra rows, writeGeoms pack si mbv gs nodes (si + nodes.length) = (nodes ++ extra, rows)
      ∧ RowsOf si mbv (nodes ++ extra) rows gs ∧ Covers si nodes extra rows.flatten
      ∧ (pack = true → nodes.Nodup → (nodes ++ extra).Nodup) := by
  induction gs generalizing nodes with
  | nil => exact ⟨[], [], by simp [writeGeoms], trivial, by intro k h1 h2; simp at h2; omega, by simp⟩
  | cons g gs ih =>
    obtain ⟨e1, vss, h1, h2, h3, h4⟩ := writeParts_spec pack si mbv true g nodes
    obtain ⟨e2, rows, g1, g2, g3, g4⟩ := ih (nodes ++ e1)
    refine ⟨e1 ++ e2, rowOf mbv true vss :: rows, ?_, ?_, ?_, ?_⟩
    · simp only [writeGeoms, h1, g1, List.append_assoc]
    · rw [← List.append_assoc]
      exact ⟨⟨vss, by simp [rowOf], RefersAll_mono _ _ _ _ _ h2⟩, g2⟩
    · intro k hk1 hk2
      rw [List.flatten_cons, List.mem_append]
      by_cases hk : k < nodes.length + e1.length
      · refine Or.inl ?_
        simp only [rowOf, if_true]
        exact mem_intercalate _ _ _ (h3 k hk1 hk)
      · exact Or.inr (g3 k (by simp; omega) (by simp at hk2 ⊢; omega))
    · intro hp hn
      rw [← List.append_assoc]; exact g4 hp (h4 hp hn)

theorem toCoords_spec {α : Type _} [DecidableEq α] (pack : Bool) (si mbv : Int) (gs : List (List (List α))) :
    RowsOf si mbv (toCoords pack si mbv gs).1 (toCoords pack si mbv gs).2 gs
    ∧ (∀ k, k < (toCoords pack si mbv gs).1.length → (si + (k : Int)) ∈ (toCoords pack si mbv gs).2.flatten)
    ∧ (pack = true → (toCoords pack si mbv gs).1.Nodup) := by
  obtain ⟨extra, rows, h1, h2, h3, h4⟩ := writeGeoms_spec pack si mbv gs []
  have h1 : toCoords pack si mbv gs = (extra, rows) := by
    rw [toCoords]; simpa using h1
  rw [h1]
  refine ⟨by simpa using h2, fun k hk => h3 k (by simp) (by simpa using hk), fun hp => ?_⟩
  simpa using h4 hp (by simp)

theorem readLoop_rows {α : Type _} (si : Int) (mbv : Option Int) (nodes : List α) (c : Conn)
    (f : Nat → List (List α)) (idxs : List Nat)
    (h : ∀ i ∈ idxs, readElement si mbv nodes c i = .ok (f i, c)) :
    readLoop si mbv nodes [] idxs c = .ok (idxs.map fun i => some (f i), c) := by
  induction idxs with
  | nil => rfl
  | cons i is ih =>
    rw [readLoop]
    simp only [List.getD_nil, Bool.false_eq_true, if_false, h i (by simp),
      ih (fun j hj => h j (by simp [hj])), List.map_cons]

theorem RowsOf_get {α : Type _} (si mbv : Int) (nodes : List α) (rows : List (List Int))
    (gs : List (List (List α))) (h : RowsOf si mbv nodes rows gs) (i : Nat) (hi : i < rows.length) :
    ∃ vss, rows[i]? = some (List.intercalate [mbv] vss) ∧ RefersAll si nodes vss (gs.getD i [])
      ∧ i < gs.length := by
  induction rows generalizing gs i with
  | nil => simp at hi
  | cons r rs ih => cases gs with
    | nil => exact absurd h (by simp [RowsOf])
    | cons g gs =>
      obtain ⟨⟨vss, h1, h2⟩, h3⟩ := h
      cases i with
      | zero => exact ⟨vss, by simp [h1], by simpa using h2, by simp⟩
      | succ i =>
        obtain ⟨vss, a, b, c⟩ := ih gs h3 i (by simpa using hi)
        exact ⟨vss, by simpa using a, by simpa using b, by simpa using c⟩

theorem RowsOf_length {α : Type _} (si mbv : Int) (nodes : List α) (rows : List (List Int))
    (gs : List (List (List α))) (h : RowsOf si mbv nodes rows gs) : rows.length = gs.length := by
  induction rows generalizing gs with
  | nil => cases gs with
    | nil => rfl
    | cons _ _ => exact absurd h (by simp [RowsOf])
  | cons v vs ih => cases gs with
    | nil => exact absurd h (by simp [RowsOf])
    | cons a as => simp [ih _ h.2]

theorem range_map_getD {β : Type _} (gs : List β) (d : β) :
    ((List.range gs.length).map fun i => some (gs.getD i d)) = gs.map some := by
  apply List.ext_getElem? 
  intro i
  by_cases h : i < gs.length
  · simp [h]
  · simp [h]

theorem zeroBased_nonneg (si : Int) (h : 0 ≤ si) (ec : List Int) : zeroBased si ec = ec.map (· - si) := by
  rw [zeroBased]; split
  · rfl
  · have : si = 0 := by omega
    subst this; simp

theorem readElement_rows {α : Type _} (si mbv : Int) (multi : Bool) (hsi : 0 ≤ si) (hmbv : mbv < 0)
    (hm : multi = true → si = 0) (nodes : List α) (rows : List (List Int)) (i : Nat) (vss : List (List Int))
    (g : List (List α)) (hrow : rows[i]? = some (List.intercalate [mbv] vss)) (hg : RefersAll si nodes vss g)
    (hlen : if multi then g ≠ [] else g.length = 1) :
    readElement si (if multi then some mbv else none) nodes (.rows rows) i = .ok (g, .rows rows) := by
  have hl := RefersAll_length _ _ _ _ hg
  have hparts : elementParts (if multi then some mbv else none) (zeroBased si (List.intercalate [mbv] vss))
      = vss.map fun vs => vs.map (· - si) := by
    rw [zeroBased_nonneg _ hsi]
    cases multi with
    | false =>
      simp only [Bool.false_eq_true, if_false] at hlen ⊢
      rw [hlen] at hl
      match vss, hl with
      | [vs], _ => simp [elementParts, List.intercalate]
    | true =>
      have h0 := hm rfl
      subst h0
      simp only [if_true] at hlen ⊢
      have hne : vss ≠ [] := by
        intro e; subst e
        exact hlen (List.length_eq_zero_iff.1 (by simpa using hl.symm))
      have hid : (fun x : Int => x - 0) = id := by funext x; simp
      simp only [elementParts, hid, List.map_id, List.map_id']
      rw [iterMultipart_intercalate mbv vss hne]
      · intro p hp hmem
        have := (RefersAll_ge _ _ _ _ hg p hp mbv hmem).1
        omega
  rw [readElement]
  simp only [elementNodes, hrow, hparts, RefersAll_take _ _ _ _ hg]
  congr 2
  exact afterRead_stable _ _ _ _ trivial

def breakOf (multi : Bool) (mbv : Int) : Option Int := if multi then some mbv else none

theorem Refers_shift {α : Type _} (pre nodes : List α) (vs : List Int) (as : List α)
    (h : Refers 0 nodes vs as) : Refers 0 (pre ++ nodes) (vs.map (· + (pre.length : Int))) as := by
  induction vs generalizing as with
  | nil => cases as with
    | nil => trivial
    | cons _ _ => exact h
  | cons v vs ih => cases as with
    | nil => exact h
    | cons a as =>
      obtain ⟨⟨k, h1, h2⟩, h3⟩ := h
      refine ⟨⟨pre.length + k, by subst h1; simp; omega, ?_⟩, ih as h3⟩
      rw [List.getElem?_append_right (by omega), Nat.add_sub_cancel_left]; exact h2

theorem RefersAll_shift {α : Type _} (pre nodes : List α) (vss : List (List Int)) (rs : List (List α))
    (h : RefersAll 0 nodes vss rs) :
    RefersAll 0 (pre ++ nodes) (vss.map fun vs => vs.map (· + (pre.length : Int))) rs := by
  induction vss generalizing rs with
  | nil => cases rs with
    | nil => trivial
    | cons _ _ => exact h
  | cons v vs ih => cases rs with
    | nil => exact h
    | cons a as => exact ⟨Refers_shift _ _ _ _ h.1, ih _ h.2⟩

theorem shiftElement_plain (mb : Option Int) (a : Int) (vs : List Int) (h : ∀ v ∈ vs, some v ≠ mb) :
    shiftElement mb a vs = vs.map (· + a) := by
  rw [shiftElement]
  apply List.map_congr_left
  intro v hv
  rw [if_neg (h v hv)]

theorem shiftElement_append (mb : Option Int) (a : Int) (us vs : List Int) :
    shiftElement mb a (us ++ vs) = shiftElement mb a us ++ shiftElement mb a vs := by
  simp [shiftElement]

theorem shiftElement_intercalate (mbv a : Int) (vss : List (List Int)) (h : ∀ vs ∈ vss, ∀ v ∈ vs, v ≠ mbv) :
    shiftElement (some mbv) a (List.intercalate [mbv] vss)
      = List.intercalate [mbv] (vss.map fun vs => vs.map (· + a)) := by
  induction vss with
  | nil => rfl
  | cons vs vss ih =>
    have hp : shiftElement (some mbv) a vs = vs.map (· + a) := by
      apply shiftElement_plain
      intro v hv e
      exact h vs (by simp) v hv (by simpa using e)
    by_cases hn : vss = []
    · subst hn; simpa [List.intercalate] using hp
    · rw [List.map_cons, intercalate_cons _ _ _ hn, intercalate_cons _ _ _ (by simpa using hn),
        shiftElement_append, shiftElement_append, hp, ih (fun ws hw => h ws (by simp [hw]))]
      congr 2
      simp [shiftElement]

theorem shiftElement_row {α : Type _} (multi : Bool) (mbv a : Int) (hmbv : mbv < 0) (nodes : List α)
    (vss : List (List Int)) (g : List (List α)) (hg : RefersAll 0 nodes vss g)
    (hlen : if multi then g ≠ [] else g.length = 1) :
    shiftElement (breakOf multi mbv) a (List.intercalate [mbv] vss)
      = List.intercalate [mbv] (vss.map fun vs => vs.map (· + a)) := by
  cases multi with
  | true =>
    apply shiftElement_intercalate
    intro vs hvs v hv e
    have := (RefersAll_ge _ _ _ _ hg vs hvs v hv).1
    omega
  | false =>
    simp only [Bool.false_eq_true, if_false] at hlen
    have hl := RefersAll_length _ _ _ _ hg
    rw [hlen] at hl
    match vss, hl with
    | [vs], _ =>
      simp only [List.intercalate, List.map_cons, List.map_nil, List.intersperse_singleton, List.flatten_cons,
        List.flatten_nil, List.append_nil]
      exact shiftElement_plain _ _ _ (by simp [breakOf])

theorem RowsOf_shift {α : Type _} (multi : Bool) (mbv : Int) (hmbv : mbv < 0) (pre nodes : List α)
    (rows : List (List Int)) (gs : List (List (List α))) (h : RowsOf 0 mbv nodes rows gs)
    (hgs : ∀ g ∈ gs, if multi then g ≠ [] else g.length = 1) :
    RowsOf 0 mbv (pre ++ nodes) (rows.map (shiftElement (breakOf multi mbv) (pre.length : Int))) gs := by
  induction rows generalizing gs with
  | nil => cases gs with
    | nil => trivial
    | cons _ _ => exact h
  | cons r rs ih => cases gs with
    | nil => exact h
    | cons g gs =>
      obtain ⟨⟨vss, h1, h2⟩, h3⟩ := h
      refine ⟨⟨vss.map fun vs => vs.map (· + (pre.length : Int)), ?_, RefersAll_shift _ _ _ _ h2⟩,
        ih gs h3 (fun x hx => hgs x (by simp [hx]))⟩
      rw [h1]
      exact shiftElement_row multi mbv _ hmbv nodes vss g h2 (hgs g (by simp))

theorem RowsOf_append {α : Type _} (mbv : Int) (nodes : List α) (r1 r2 : List (List Int))
    (g1 g2 : List (List (List α))) (h1 : RowsOf 0 mbv nodes r1 g1) (h2 : RowsOf 0 mbv nodes r2 g2) :
    RowsOf 0 mbv nodes (r1 ++ r2) (g1 ++ g2) := by
  induction r1 generalizing g1 with
  | nil => cases g1 with
    | nil => exact h2
    | cons _ _ => exact absurd h1 (by simp [RowsOf])
  | cons r rs ih => cases g1 with
    | nil => exact absurd h1 (by simp [RowsOf])
    | cons g gs => exact ⟨h1.1, ih gs h1.2⟩

theorem RowsOf_row_ne {α : Type _} (si mbv : Int) (nodes : List α)
    (rows : List (List Int)) (gs : List (List (List α))) (h : RowsOf si mbv nodes rows gs)
    (hgs : ∀ g ∈ gs, g ≠ [] ∧ ∀ ring ∈ g, ring ≠ []) : ∀ row ∈ rows, row ≠ [] := by
  induction rows generalizing gs with
  | nil => simp
  | cons r rs ih => cases gs with
    | nil => exact absurd h (by simp [RowsOf])
    | cons g gs =>
      obtain ⟨⟨vss, h1, h2⟩, h3⟩ := h
      intro row hrow
      rcases List.mem_cons.1 hrow with rfl | hrow
      · have hg := hgs g (by simp)
        cases g with
        | nil => exact absurd rfl hg.1
        | cons ring rings => cases vss with
          | nil => exact absurd h2 (by simp [RefersAll])
          | cons vs vss =>
            have hr := hg.2 ring (by simp)
            cases ring with
            | nil => exact absurd rfl hr
            | cons a as => cases vs with
              | nil => exact absurd h2.1 (by simp [Refers])
              | cons v vs => rw [h1, intercalate_flat]; simp
      · exact ih gs h3 (fun x hx => hgs x (by simp [hx])) row hrow

theorem intercalate_mem (mbv : Int) (vss : List (List Int)) (v : Int) (h : v ∈ List.intercalate [mbv] vss) :
    v = mbv ∨ ∃ vs ∈ vss, v ∈ vs := by
  induction vss with
  | nil => simp [List.intercalate] at h
  | cons vs vss ih =>
    by_cases hn : vss = []
    · subst hn; right; exact ⟨vs, by simp, by simpa [List.intercalate] using h⟩
    · rw [intercalate_cons _ _ _ hn, List.mem_append, List.mem_append] at h
      rcases h with (h | h) | h
      · exact Or.inr ⟨vs, by simp, h⟩
      · exact Or.inl (by simpa using h)
      · rcases ih h with h | ⟨ws, hw, h⟩
        · exact Or.inl h
        · exact Or.inr ⟨ws, by simp [hw], h⟩

theorem RowsOf_lt {α : Type _} (mbv : Int) (hmbv : mbv < 0) (nodes : List α)
    (rows : List (List Int)) (gs : List (List (List α))) (h : RowsOf 0 mbv nodes rows gs) :
    ∀ row ∈ rows, ∀ v ∈ row, v < (nodes.length : Int) := by
  induction rows generalizing gs with
  | nil => simp
  | cons r rs ih => cases gs with
    | nil => exact absurd h (by simp [RowsOf])
    | cons g gs =>
      obtain ⟨⟨vss, h1, h2⟩, h3⟩ := h
      intro row hrow v hv
      rcases List.mem_cons.1 hrow with rfl | hrow
      · rw [h1] at hv
        rcases intercalate_mem _ _ _ hv with rfl | ⟨vs, hvs, hv⟩
        · omega
        · have := (RefersAll_ge _ _ _ _ h2 vs hvs v hv).2
          omega
      · exact ih gs h3 row hrow v hv

theorem optMapM_some {β γ : Type _} (xs : List β) (f : β → Option γ) (g : β → γ) (h : ∀ x ∈ xs, f x = some (g x)) :
    xs.mapM f = some (xs.map g) := by
  induction xs with
  | nil => rfl
  | cons x xs ih => rw [List.mapM_cons, h x (by simp), ih (fun y hy => h y (by simp [hy]))]; rfl

theorem maxIndex_eq (rows : List (List Int)) (n : Int) (hne : ∀ row ∈ rows, row ≠ [])
    (hlt : ∀ row ∈ rows, ∀ v ∈ row, v ≤ n) (hmem : n ∈ rows.flatten) : maxIndex rows = some n := by
  have h1 : ∀ row ∈ rows, row.max? = some (row.max?.getD 0) := by
    intro row hr
    cases hm : row.max? with
    | none => exact absurd (List.max?_eq_none_iff.1 hm) (hne row hr)
    | some m => rfl
  rw [maxIndex, optMapM_some rows List.max? (fun row => row.max?.getD 0) h1]
  simp only
  rw [List.max?_eq_some_iff]
  obtain ⟨row, hr, hv⟩ := List.mem_flatten.1 hmem
  refine ⟨List.mem_map.2 ⟨row, hr, ?_⟩, ?_⟩
  · have := h1 row hr
    obtain ⟨hm, hle⟩ := List.max?_eq_some_iff.1 this
    have a := hle n hv
    have b := hlt row hr _ hm
    omega
  · intro b hb
    obtain ⟨row', hr', rfl⟩ := List.mem_map.1 hb
    have := h1 row' hr'
    obtain ⟨hm, _⟩ := List.max?_eq_some_iff.1 this
    exact hlt row' hr' _ hm

/-- All rows of all ranks after the shift. -/
def allRows {α : Type _} (mb : Option Int) : List (List α × List (List Int)) → Int → List (List Int)
  | [], _ => []
  | w :: ws, a => w.2.map (shiftElement mb a) ++ allRows mb ws (a + w.1.length)

theorem zipWith_chain {α : Type _} (mb : Option Int) (ws : List (List α × List (List Int))) (a : Int) :
    ((List.zipWith (flattenRank mb) (adjustChain (ws.map fun w => (w.1.length : Int) - 1) a)
        (ws.map Prod.snd)).map Prod.fst).flatten = (allRows mb ws a).map List.length
    ∧ ((List.zipWith (flattenRank mb) (adjustChain (ws.map fun w => (w.1.length : Int) - 1) a)
        (ws.map Prod.snd)).map Prod.snd).flatten = (allRows mb ws a).flatten := by
  induction ws generalizing a with
  | nil => exact ⟨rfl, rfl⟩
  | cons w ws ih =>
    obtain ⟨h1, h2⟩ := ih (a + w.1.length)
    have he : (w.1.length : Int) - 1 + 1 + a = a + w.1.length := by omega
    simp only [List.map_cons, adjustChain, List.zipWith_cons_cons, List.flatten_cons, allRows, List.map_append,
      List.flatten_append, he, h1, h2]
    constructor
    · congr 1
      simp only [flattenRank, List.map_map]
      apply List.map_congr_left
      intro x _; simp [shiftElement]
    · rfl

theorem allRows_spec {α : Type _} [DecidableEq α] (pack : Bool) (multi : Bool) (mbv : Int) (hmbv : mbv < 0)
    (ranks : List (List (List (List α)))) (pre : List α)
    (hgs : ∀ gs ∈ ranks, ∀ g ∈ gs, if multi then g ≠ [] else g.length = 1) :
    RowsOf 0 mbv (pre ++ ((ranks.map (toCoords pack 0 mbv)).map Prod.fst).flatten)
      (allRows (breakOf multi mbv) (ranks.map (toCoords pack 0 mbv)) pre.length) ranks.flatten := by
  induction ranks generalizing pre with
  | nil => trivial
  | cons gs ranks ih =>
    obtain ⟨h1, _, _⟩ := toCoords_spec pack 0 mbv gs
    have h2 := RowsOf_shift multi mbv hmbv pre _ _ _ h1 (hgs gs (by simp))
    have h3 := ih (pre ++ (toCoords pack 0 mbv gs).1) (fun x hx => hgs x (by simp [hx]))
    simp only [List.map_cons, List.flatten_cons, allRows]
    rw [← List.append_assoc]
    apply RowsOf_append
    · exact RowsOf_mono _ _ _ _ _ _ h2
    · rw [List.length_append, Int.natCast_add] at h3; exact h3

theorem raggedNodes_rows (rows : List (List Int)) (i : Nat) (row : List Int) (h : rows[i]? = some row) :
    raggedNodes (rows.map List.length) rows.flatten i = row := by
  induction rows generalizing i with
  | nil => simp at h
  | cons r rs ih =>
    cases i with
    | zero =>
      simp only [List.getElem?_cons_zero, Option.some.injEq] at h
      subst h
      rw [raggedNodes_eq _ _ 0 r.length (by simp)]; simp
    | succ i =>
      rw [List.map_cons, raggedNodes_cons, List.flatten_cons, List.drop_left]
      exact ih i (by simpa using h)

theorem readElement_ragged {α : Type _} (mb : Option Int) (nodes : List α) (rows : List (List Int)) (i : Nat)
    (g : List (List α)) (hi : i < rows.length)
    (h : readElement 0 mb nodes (.rows rows) i = .ok (g, .rows rows)) :
    readElement 0 mb nodes (.ragged (rows.map List.length) rows.flatten) i
      = .ok (g, .ragged (rows.map List.length) rows.flatten) := by
  have hr : rows[i]? = some rows[i] := List.getElem?_eq_getElem hi
  rw [readElement] at h ⊢
  simp only [elementNodes, hr] at h
  simp only [elementNodes, raggedNodes_rows _ _ _ hr]
  split at h
  · simp at h
  · next gg heq =>
    simp only [Except.ok.injEq, Prod.mk.injEq] at h ⊢
    exact ⟨h.1, by simp [afterRead]⟩

theorem maxIndex_toCoords {α : Type _} [DecidableEq α] (pack : Bool) (mbv : Int) (hmbv : mbv < 0)
    (gs : List (List (List α))) (hne : gs ≠ []) (hgs : ∀ g ∈ gs, g ≠ [] ∧ ∀ ring ∈ g, ring ≠ []) :
    maxIndex (toCoords pack 0 mbv gs).2 = some (((toCoords pack 0 mbv gs).1.length : Int) - 1) := by
  obtain ⟨h1, h2, _⟩ := toCoords_spec pack 0 mbv gs
  have hlt := RowsOf_lt mbv hmbv _ _ _ h1
  have hrow := RowsOf_row_ne _ _ _ _ _ h1 hgs
  have hlen := RowsOf_length _ _ _ _ _ h1
  have hpos : 0 < (toCoords pack 0 mbv gs).1.length := by
    obtain ⟨vss, a, b, c⟩ := RowsOf_get _ _ _ _ _ h1 0 (by
      rw [hlen]; exact List.length_pos_iff.2 hne)
    have hmem : gs.getD 0 [] ∈ gs := by
      rw [List.getD_eq_getElem?_getD, List.getElem?_eq_getElem c]; exact List.getElem_mem c
    obtain ⟨n1, n2⟩ := hgs _ hmem
    generalize gs.getD 0 [] = g at b n1 n2
    cases g with
    | nil => exact absurd rfl n1
    | cons ring rings => cases vss with
      | nil => exact absurd b (by simp [RefersAll])
      | cons vs vss =>
        have hr := n2 ring (by simp)
        cases ring with
        | nil => exact absurd rfl hr
        | cons x xs => cases vs with
          | nil => exact absurd b.1 (by simp [Refers])
          | cons v vs =>
            have := Refers_ge _ _ _ _ b.1 v (by simp)
            omega
  apply maxIndex_eq _ _ hrow
  · intro row hr v hv; have := hlt row hr v hv; omega
  · have := h2 ((toCoords pack 0 mbv gs).1.length - 1) (by omega)
    rw [show ((toCoords pack 0 mbv gs).1.length : Int) - 1
      = 0 + (((toCoords pack 0 mbv gs).1.length - 1 : Nat) : Int) by omega]
    exact this

end Ocgis.Props
