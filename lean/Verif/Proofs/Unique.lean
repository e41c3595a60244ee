import Verif.Proofs.Collective
namespace Ocgis.Comm

theorem mem_insertUnique (x y : Int) (l : List Int) : y ∈ insertUnique x l ↔ y = x ∨ y ∈ l := by
  induction l with
  | nil => simp [insertUnique]
  | cons z l ih =>
    unfold insertUnique
    split
    · simp
    · split
      · next h => subst h; simp
      · simp only [List.mem_cons, ih]; grind

theorem mem_npUnique (y : Int) (l : List Int) : y ∈ npUnique l ↔ y ∈ l := by
  unfold npUnique
  induction l with
  | nil => simp
  | cons x l ih => rw [List.foldr_cons, mem_insertUnique, ih]; simp

theorem sorted_insertUnique (x : Int) (l : List Int) (h : l.Pairwise (· < ·)) : (insertUnique x l).Pairwise (· < ·) := by
  induction l with
  | nil => simp [insertUnique]
  | cons z l ih =>
    obtain ⟨h1, h2⟩ := List.pairwise_cons.1 h
    unfold insertUnique
    split
    · next hx =>
      refine List.pairwise_cons.2 ⟨?_, h⟩
      intro a ha
      rcases List.mem_cons.1 ha with rfl | ha
      · exact hx
      · have := h1 a ha; omega
    · split
      · exact h
      · refine List.pairwise_cons.2 ⟨?_, ih h2⟩
        intro a ha
        rcases (mem_insertUnique _ _ _).1 ha with rfl | ha
        · omega
        · exact h1 a ha

theorem sorted_npUnique (l : List Int) : (npUnique l).Pairwise (· < ·) := by
  unfold npUnique
  induction l with
  | nil => simp
  | cons x l ih => exact sorted_insertUnique _ _ ih

theorem npUnique_ne_nil {l : List Int} (h : l ≠ []) : npUnique l ≠ [] := by
  cases l with
  | nil => exact absurd rfl h
  | cons a l =>
    intro e
    have : a ∈ npUnique (a :: l) := (mem_npUnique _ _).2 (by simp)
    rw [e] at this
    simp at this

/-- The two messages sent to a rank, by tag. -/
def payload (S : List Int) (t : Nat) : List Msg :=
  if t = tagSelectSize then [[(S.length : Int)]] else if t = tagOverlap then [S] else []

/-- What rank `me` with values `u` sends to a rank with the bounds gathered for `o`. -/
def sentTo (all : List Msg) (u : List Int) (o : Nat) : List Int :=
  u.filter fun x => decide ((boundsOf all o).1 ≤ x) && decide (x ≤ (boundsOf all o).2)

def addSends (all : List Msg) (me : Nat) (u : List Int) (os : List Nat) (c : Chan) : Chan :=
  fun s d t => if s = me ∧ d ∈ os ∧ me < d then c s d t ++ payload (sentTo all u d) t else c s d t

theorem uniqueSends_run (all : List Msg) (me : Nat) (u : List Int) (k : Proc (List Int)) (os : List Nat) (hnd : os.Nodup)
    (c : Chan) : Run me (uniqueSends all me u k os, c) (k, addSends all me u os c) := by
  induction os generalizing c with
  | nil =>
    have : addSends all me u [] c = c := by funext s d t; simp [addSends]
    rw [this]; exact .refl _
  | cons o os ih =>
    obtain ⟨h1, h2⟩ := List.nodup_cons.1 hnd
    unfold uniqueSends
    split
    · next h =>
      refine .cons (.send _ _ _ _ _) (.cons (.send _ _ _ _ _) ?_)
      have e : addSends all me u (o :: os) c
          = addSends all me u os ((c.push me o tagSelectSize [((sentTo all u o).length : Int)]).push me o tagOverlap (sentTo all u o)) := by
        funext s d t
        simp only [addSends, Chan.push, payload, List.mem_cons]
        by_cases hs : s = me
        · by_cases hd : d = o
          · subst hd
            subst hs
            simp only [true_or, true_and, h, and_self, if_true, h1, false_and, if_false]
            by_cases ht : t = tagSelectSize
            · subst ht; simp [tagSelectSize, tagOverlap]
            · by_cases ht' : t = tagOverlap
              · subst ht'; simp [ht]
              · simp [ht, ht']
          · simp [hs, hd]
        · simp [hs]
      rw [e]
      exact ih h2 _
    · next h =>
      have e : addSends all me u (o :: os) c = addSends all me u os c := by
        funext s d t
        simp only [addSends, List.mem_cons]
        by_cases hd : d = o
        · subst hd; simp [h]
        · simp [hd]
      rw [e]
      exact ih h2 _

def delRecvs (me : Nat) (os : List Nat) (c : Chan) : Chan :=
  fun s d t => if d = me ∧ s ∈ os ∧ s < me ∧ (t = tagSelectSize ∨ t = tagOverlap) then [] else c s d t

/-- Dropping what the lower ranks sent. -/
def dropSent (me : Nat) (S : Nat → List Int) (os : List Nat) (u : List Int) : List Int :=
  u.filter fun x => os.all fun o => !(decide (o < me) && (S o).contains x)

theorem uniqueRecvs_run (me : Nat) (S : Nat → List Int) (k : List Int → Proc (List Int)) (os : List Nat) (hnd : os.Nodup)
    (u : List Int) (c : Chan) (hc : ∀ o ∈ os, o < me → ∀ t, c o me t = payload (S o) t) :
    Run me (uniqueRecvs me k os u, c) (k (dropSent me S os u), delRecvs me os c) := by
  induction os generalizing c u with
  | nil =>
    have e : delRecvs me [] c = c := by funext s d t; simp [delRecvs]
    have e' : dropSent me S [] u = u := by simp [dropSent]
    rw [e, e']; exact .refl _
  | cons o os ih =>
    obtain ⟨h1, h2⟩ := List.nodup_cons.1 hnd
    unfold uniqueRecvs
    split
    · next h =>
      have p1 := hc o (by simp) h tagSelectSize
      have p2 := hc o (by simp) h tagOverlap
      simp only [payload, if_true] at p1
      rw [payload, if_neg (by decide), if_pos rfl] at p2
      refine .cons (.recv _ _ _ _ _ [] p1) ?_
      simp only [Msg.scalar, Proc.ofRes]
      refine .cons (.recv _ _ _ _ (S o) [] ?_) ?_
      · simp only [Chan.pop]
        rw [if_neg (by decide +revert)]
        exact p2
      · rw [if_neg (by simp)]
        have e : delRecvs me (o :: os) c = delRecvs me os ((c.pop o me tagSelectSize).pop o me tagOverlap) := by
          funext s d t
          simp only [delRecvs, Chan.pop, List.mem_cons]
          by_cases hd : d = me
          · by_cases hs : s = o
            · subst hs; subst hd
              by_cases ht : t = tagSelectSize
              · subst ht; simp [h1, h, p1, show tagSelectSize ≠ tagOverlap by decide]
              · by_cases ht' : t = tagOverlap
                · subst ht'; simp [h1, h, p2, show tagOverlap ≠ tagSelectSize by decide]
                · simp [ht, ht']
            · simp [hs]
          · simp [hd]
        have e' : dropSent me S (o :: os) u = dropSent me S os (u.filter fun x => !(S o).contains x) := by
          simp only [dropSent, List.filter_filter]
          apply List.filter_congr
          intro x _
          simp [h]
          grind
        rw [e, e']
        apply ih h2
        intro o' ho' hlt t
        have hne : o' ≠ o := fun h => h1 (h ▸ ho')
        simp only [Chan.pop, hne, false_and, if_false]
        exact hc o' (by simp [ho']) hlt t
    · next h =>
      have e : delRecvs me (o :: os) c = delRecvs me os c := by
        funext s d t
        simp only [delRecvs, List.mem_cons]
        by_cases hs : s = o
        · subst hs; simp [h]
        · simp [hs]
      have e' : dropSent me S (o :: os) u = dropSent me S os u := by
        simp only [dropSent]
        apply List.filter_congr
        intro x _
        simp [h]
      rw [e, e']
      exact ih h2 _ _ (fun o' ho' => hc o' (by simp [ho']))

theorem overlaps_nodup (all : List Msg) (n me : Nat) : (overlaps all n me).Nodup :=
  List.Pairwise.filter _ List.nodup_range

theorem mem_overlaps {all : List Msg} {n me o : Nat} : o ∈ overlaps all n me ↔ o < n ∧ o ≠ me ∧
    intervalsOverlap (boundsOf all me).1 (boundsOf all me).2 (boundsOf all o).1 (boundsOf all o).2 = true := by
  simp [overlaps, List.mem_filter]

theorem intervalsOverlap_symm {a b c d : Int} (h1 : a ≤ b) (h2 : c ≤ d) :
    intervalsOverlap a b c d = intervalsOverlap c d a b := by
  have : (intervalsOverlap a b c d = true) ↔ (intervalsOverlap c d a b = true) := by
    simp only [intervalsOverlap, Bool.or_eq_true, decide_eq_true_eq]
    omega
  cases h : intervalsOverlap a b c d <;> cases h' : intervalsOverlap c d a b <;> simp_all

/-- The channels once the first `r` ranks have finished. -/
def uniqueChan (all : List Msg) (n : Nat) (u : Nat → List Int) (r : Nat) : Chan :=
  fun s d t => if s < r ∧ r ≤ d ∧ d ∈ overlaps all n s then payload (sentTo all (u s) d) t else []

theorem unique_rank_run (all : List Msg) (n : Nat) (u : Nat → List Int)
    (hb : ∀ r, r < n → (boundsOf all r).1 ≤ (boundsOf all r).2) (r : Nat) (hr : r < n) :
    Run r (uniqueSends all r (u r)
        (if r ≠ 0 then uniqueRecvs r (fun u => .coll [] fun _ => .ret u) (overlaps all n r) (u r)
          else .coll [] fun _ => .ret (u r)) (overlaps all n r), uniqueChan all n u r)
      (.coll [] fun _ => .ret (dropSent r (fun o => sentTo all (u o) r) (overlaps all n r) (u r)), uniqueChan all n u (r + 1)) := by
  refine (uniqueSends_run all r (u r) _ _ (overlaps_nodup _ _ _) _).trans ?_
  have sym : ∀ s, s < n → (r ∈ overlaps all n s ↔ s ∈ overlaps all n r) := by
    intro s hs
    rw [mem_overlaps, mem_overlaps, intervalsOverlap_symm (hb s hs) (hb r hr)]
    constructor <;> rintro ⟨_, h1, h2⟩ <;> exact ⟨by omega, Ne.symm h1, h2⟩
  have e : delRecvs r (overlaps all n r) (addSends all r (u r) (overlaps all n r) (uniqueChan all n u r))
      = uniqueChan all n u (r + 1) := by
    funext s d t
    simp only [delRecvs, addSends, uniqueChan]
    by_cases hd : d = r
    · subst hd
      rw [if_neg (show ¬ (s < d + 1 ∧ d + 1 ≤ d ∧ _) by omega)]
      by_cases hs : s < d
      · by_cases ho : s ∈ overlaps all n d
        · by_cases ht : t = tagSelectSize ∨ t = tagOverlap
          · rw [if_pos ⟨rfl, ho, hs, ht⟩]
          · rw [if_neg (by simp [ht]), if_neg (by omega)]
            simp only [not_or] at ht
            simp [payload, ht]
        · rw [if_neg (by simp [ho]), if_neg (by omega), if_neg]
          intro h; exact ho ((sym s (by omega)).1 h.2.2)
      · rw [if_neg (by simp [hs]), if_neg (by omega), if_neg (by simp [hs])]
    · rw [if_neg (by simp [hd])]
      by_cases hs : s = r
      · subst hs
        by_cases ho : d ∈ overlaps all n s
        · by_cases h2 : s < d
          · rw [if_pos ⟨rfl, ho, h2⟩, if_neg (by omega), if_pos ⟨by omega, by omega, ho⟩]; rfl
          · rw [if_neg (by omega), if_neg (by omega), if_neg (by omega)]
        · rw [if_neg (by simp [ho]), if_neg (by simp [ho]), if_neg (by simp [ho])]
      · rw [if_neg (by simp [hs])]
        by_cases h3 : s < r
        · by_cases h4 : r < d
          · by_cases ho : d ∈ overlaps all n s
            · rw [if_pos ⟨h3, by omega, ho⟩, if_pos ⟨by omega, by omega, ho⟩]
            · rw [if_neg (by simp [ho]), if_neg (by simp [ho])]
          · rw [if_neg (by omega), if_neg (by omega)]
        · rw [if_neg (by omega), if_neg (by omega)]
  by_cases h0 : r = 0
  · rw [if_neg (by simp [h0])]
    have e1 : dropSent r (fun o => sentTo all (u o) r) (overlaps all n r) (u r) = u r := by
      simp [dropSent, h0]
    have e2 : delRecvs r (overlaps all n r) (addSends all r (u r) (overlaps all n r) (uniqueChan all n u r))
        = addSends all r (u r) (overlaps all n r) (uniqueChan all n u r) := by
      funext s d t
      simp [delRecvs, h0]
    rw [e1, ← e, e2]
    exact .refl _
  · rw [if_pos h0, ← e]
    refine uniqueRecvs_run r (fun o => sentTo all (u o) r) _ _ (overlaps_nodup _ _ _) (u r) _ ?_
    intro o ho hlt t
    simp only [addSends, uniqueChan]
    rw [if_neg (by omega), if_pos ⟨hlt, by omega, (sym o (by omega)).2 ho⟩]

theorem unique_returns (n : Nat) (hn : 0 < n) (arr : Nat → List Int) (hne : ∀ r, r < n → arr r ≠ []) :
    ∃ result : Nat → List Int, AlwaysReturns n (fun r => uniqueGlobal n r (arr r)) result ∧
      ∀ r, r < n → (result r).Pairwise (· < ·) ∧ ∀ x, x ∈ result r ↔ x ∈ arr r ∧ ∀ j, j < r → x ∉ arr j := by
  -- the extremes of every rank
  have hmn : ∀ r, ∃ mn mx : Int, r < n → listMin (npUnique (arr r)) = .ok mn ∧ listMax (npUnique (arr r)) = .ok mx ∧
      mn ≤ mx ∧ ∀ x ∈ arr r, mn ≤ x ∧ x ≤ mx := by
    intro r
    by_cases hr : r < n
    · obtain ⟨mn, a, b, c⟩ := listMin_ok _ (npUnique_ne_nil (hne r hr))
      obtain ⟨mx, a', b', c'⟩ := listMax_ok _ (npUnique_ne_nil (hne r hr))
      exact ⟨mn, mx, fun _ => ⟨a, a', c _ b', fun x hx =>
        ⟨c x ((mem_npUnique _ _).2 hx), c' x ((mem_npUnique _ _).2 hx)⟩⟩⟩
    · exact ⟨0, 0, fun h => absurd h hr⟩
  obtain ⟨mn, hmn⟩ := Classical.axiomOfChoice hmn
  obtain ⟨mx, hm⟩ := Classical.axiomOfChoice hmn
  generalize hall : (List.range n).map (fun r => [mn r, mx r]) = all
  have hbo : ∀ r, r < n → boundsOf all r = (mn r, mx r) := by
    intro r hr
    rw [← hall]
    unfold boundsOf
    rw [List.getD_eq_getElem?_getD, List.getElem?_map, List.getElem?_range hr]
    rfl
  refine ⟨fun r => dropSent r (fun o => sentTo all (npUnique (arr o)) r) (overlaps all n r) (npUnique (arr r)), ?_, ?_⟩
  · apply returns_of_reach
    unfold Comm.start
    have e : (List.range n).map (fun r => uniqueGlobal n r (arr r)) = (List.range n).map (fun r =>
        Proc.coll [] ((fun r (_ : List Msg) => Proc.coll [mn r, mx r] fun gathered => .coll [] fun _ => .coll [] fun _ =>
            uniqueSends gathered r (npUnique (arr r))
              (if r ≠ 0 then
                uniqueRecvs r (fun u => .coll [] fun _ => .ret u) (overlaps gathered n r) (npUnique (arr r))
              else .coll [] fun _ => .ret (npUnique (arr r)))
              (overlaps gathered n r)) r)) := by
      apply map_range_congr
      intro r hr
      unfold uniqueGlobal
      simp only [(hm r hr).1, (hm r hr).2.1]
    rw [e]
    refine (reach_coll n hn _ _ _).trans ?_
    refine (reach_coll n hn (fun r => [mn r, mx r]) _ _).trans ?_
    rw [hall]
    refine (reach_coll n hn (fun _ => []) _ _).trans ?_
    refine (reach_coll n hn (fun _ => []) _ _).trans ?_
    have h := reach_sequential n _ _ (uniqueChan all n (fun r => npUnique (arr r)))
      (fun r hr => unique_rank_run all n (fun r => npUnique (arr r))
        (fun r hr => by rw [hbo r hr]; exact (hm r hr).2.2.1) r hr)
    have e0 : uniqueChan all n (fun r => npUnique (arr r)) 0 = Chan.empty := by
      funext s d t; simp [uniqueChan, Chan.empty]
    have e1 : uniqueChan all n (fun r => npUnique (arr r)) n = Chan.empty := by
      funext s d t
      simp only [uniqueChan, Chan.empty]
      rw [if_neg]
      rintro ⟨_, h2, h3⟩
      have := (mem_overlaps.1 h3).1
      omega
    rw [e0, e1] at h
    refine h.trans ?_
    exact reach_coll n hn (fun _ => []) (fun r _ => .ret (dropSent r (fun o => sentTo all (npUnique (arr o)) r) (overlaps all n r) (npUnique (arr r)))) _
  · intro r hr
    refine ⟨List.Pairwise.filter _ (sorted_npUnique _), ?_⟩
    intro x
    simp only [dropSent, List.mem_filter, mem_npUnique, List.all_eq_true, Bool.not_eq_true', Bool.and_eq_false_iff,
      decide_eq_false_iff_not, List.contains_eq_mem, decide_eq_false_iff_not]
    constructor
    · rintro ⟨h1, h2⟩
      refine ⟨h1, ?_⟩
      intro j hj hx
      have b1 := (hm r hr).2.2.2 x h1
      have b2 := (hm j (by omega)).2.2.2 x hx
      have ho : j ∈ overlaps all n r := by
        rw [mem_overlaps, hbo r hr, hbo j (by omega)]
        refine ⟨by omega, by omega, ?_⟩
        simp only [intervalsOverlap, Bool.or_eq_true, decide_eq_true_eq]
        omega
      rcases h2 j ho with h | h
      · exact h hj
      · apply h
        simp only [sentTo, List.mem_filter, mem_npUnique, Bool.and_eq_true, decide_eq_true_eq, hbo r hr]
        exact ⟨hx, b1⟩
    · rintro ⟨h1, h2⟩
      refine ⟨h1, ?_⟩
      intro o ho
      by_cases hlt : o < r
      · right
        intro h
        simp only [sentTo, List.mem_filter, mem_npUnique] at h
        exact h2 o hlt h.1
      · left; exact hlt

end Ocgis.Comm
