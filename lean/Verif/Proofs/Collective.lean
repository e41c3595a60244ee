import Verif.Proofs.Comm
import Verif.Proofs.Indexing
import Verif.Model.Collective
namespace Ocgis.Comm
variable {R : Type}

/-- Number of elements on the ranks before `r`. -/
def prefixSize (sizes : Nat → Nat) : Nat → Nat
  | 0 => 0
  | r + 1 => prefixSize sizes r + sizes r

/-- The common shape of the two chain protocols. -/
def chainTail (size me ls tag : Nat) (fin : Int → Proc R) (s : Int) : Proc R :=
  if me + 1 = size then fin s else .send (me + 1) tag [s + ls] (fin s)

def chain (size me ls tag : Nat) (fin : Int → Proc R) (s0 : Int) : Proc R :=
  if me = 0 then chainTail size me ls tag fin s0
  else .recv (me - 1) tag fun v => Proc.ofRes (Msg.scalar v) fun s => chainTail size me ls tag fin s

/-- A loop over the ranks of the shape both functions use. -/
def chainLoop (size me ls tag : Nat) (fin : Int → Proc R) : List Nat → Int → Proc R
  | [], s => fin s
  | rank :: rest, s =>
    if rank + 1 = size then fin s
    else if me = rank then .send (rank + 1) tag [s + ls] (chainLoop size me ls tag fin rest s)
    else if me = rank + 1 then
      .recv rank tag fun v => Proc.ofRes (Msg.scalar v) fun s => chainLoop size me ls tag fin rest s
    else chainLoop size me ls tag fin rest s

theorem chainLoop_after (size me ls tag : Nat) (fin : Int → Proc R) (m j : Nat) (hj : me < j) (s : Int) :
    chainLoop size me ls tag fin (List.range' j m) s = fin s := by
  induction m generalizing j with
  | zero => rfl
  | succ m ih =>
    rw [List.range'_succ, chainLoop]
    split
    · rfl
    · rw [if_neg (by omega), if_neg (by omega)]
      exact ih (j + 1) (by omega)

theorem chainLoop_at (size me ls tag : Nat) (fin : Int → Proc R) (m : Nat) (hm : me + m = size) (h0 : 0 < m) (s : Int) :
    chainLoop size me ls tag fin (List.range' me m) s = chainTail size me ls tag fin s := by
  cases m with
  | zero => omega
  | succ m =>
    rw [List.range'_succ, chainLoop, chainTail]
    split
    · rfl
    · rw [if_pos rfl, chainLoop_after _ _ _ _ _ _ _ (by omega)]

theorem chainLoop_before (size me ls tag : Nat) (fin : Int → Proc R) (m j : Nat) (hm : j + m = size) (hj : j < me)
    (hme : me < size) (s : Int) :
    chainLoop size me ls tag fin (List.range' j m) s
      = .recv (me - 1) tag fun v => Proc.ofRes (Msg.scalar v) fun s => chainTail size me ls tag fin s := by
  induction m generalizing j with
  | zero => omega
  | succ m ih =>
    rw [List.range'_succ, chainLoop, if_neg (by omega), if_neg (by omega)]
    split
    · next h =>
      subst h
      have e : (fun v => Proc.ofRes (Msg.scalar v) fun s => chainLoop size (j + 1) ls tag fin (List.range' (j + 1) m) s)
          = (fun v => Proc.ofRes (Msg.scalar v) fun s => chainTail size (j + 1) ls tag fin s) := by
        funext v
        congr 1
        funext s
        exact chainLoop_at size (j + 1) ls tag fin m (by omega) (by omega) s
      rw [e]; rfl
    · exact ih (j + 1) (by omega) (by omega)

theorem chainLoop_eq (size me ls tag : Nat) (fin : Int → Proc R) (hme : me < size) (s : Int) :
    chainLoop size me ls tag fin (List.range size) s = chain size me ls tag fin s := by
  rw [List.range_eq_range', chain]
  split
  · next h => subst h; exact chainLoop_at size 0 ls tag fin size (by omega) hme s
  · exact chainLoop_before size me ls tag fin size 0 (by omega) (by omega) hme s

/-- The channels after the first `r` ranks of a chain have run. -/
def chainChan (n tag : Nat) (start : Int) (sizes : Nat → Nat) (r : Nat) : Chan :=
  if 0 < r ∧ r < n then Chan.empty.push (r - 1) r tag [start + prefixSize sizes r] else Chan.empty

theorem pop_push_empty (s d t : Nat) (v : Msg) : (Chan.empty.push s d t v).pop s d t = Chan.empty := by
  funext a b c
  unfold Chan.pop Chan.push Chan.empty
  split <;> simp_all

theorem chain_run (n tag : Nat) (start : Int) (sizes : Nat → Nat) (fin : Nat → Int → Proc R) (r : Nat) (hr : r < n) :
    Run r (chain n r (sizes r) tag (fin r) start, chainChan n tag start sizes r)
      (fin r (start + prefixSize sizes r), chainChan n tag start sizes (r + 1)) := by
  have htail : Run r (chainTail n r (sizes r) tag (fin r) (start + prefixSize sizes r), Chan.empty)
      (fin r (start + prefixSize sizes r), chainChan n tag start sizes (r + 1)) := by
    unfold chainTail chainChan
    by_cases h : r + 1 = n
    · rw [if_pos h, if_neg (by omega)]; exact .refl _
    · rw [if_neg h, if_pos (by omega)]
      refine .cons (.send _ _ _ _ _) ?_
      have e : start + (prefixSize sizes r : Int) + (sizes r : Int) = start + (prefixSize sizes (r + 1) : Nat) := by
        simp only [prefixSize]; omega
      rw [e]
      exact .refl _
  by_cases h0 : r = 0
  · subst h0
    have e : chainChan n tag start sizes 0 = Chan.empty := by simp [chainChan]
    have e2 : start + (prefixSize sizes 0 : Int) = start := by simp [prefixSize]
    rw [e2] at htail
    rw [e, e2, chain, if_pos rfl]
    exact htail
  · rw [chain, if_neg h0]
    have e : chainChan n tag start sizes r = Chan.empty.push (r - 1) r tag [start + prefixSize sizes r] := by
      simp only [chainChan]; rw [if_pos (by omega)]
    rw [e]
    refine .cons (.recv _ _ _ _ [start + prefixSize sizes r] [] (by simp [Chan.push, Chan.empty])) ?_
    rw [pop_push_empty]
    simp only [Msg.scalar, Proc.ofRes]
    exact htail

theorem chain_reach (n tag : Nat) (start : Int) (sizes : Nat → Nat) (fin : Nat → Int → Proc R) :
    Reach ⟨(List.range n).map (fun r => chain n r (sizes r) tag (fin r) start), Chan.empty⟩
      ⟨(List.range n).map (fun r => fin r (start + prefixSize sizes r)), Chan.empty⟩ := by
  have h := reach_sequential n (fun r => chain n r (sizes r) tag (fin r) start)
    (fun r => fin r (start + prefixSize sizes r)) (chainChan n tag start sizes)
    (fun r hr => chain_run n tag start sizes fin r hr)
  have e0 : chainChan n tag start sizes 0 = Chan.empty := by simp [chainChan]
  have e1 : chainChan n tag start sizes n = Chan.empty := by simp [chainChan]
  rw [e0, e1] at h
  exact h

theorem map_range_congr {β : Type _} {n : Nat} {f g : Nat → β} (h : ∀ i, i < n → f i = g i) :
    (List.range n).map f = (List.range n).map g :=
  List.map_congr_left fun i hi => h i (List.mem_range.1 hi)

theorem arangeLoop_eq (size me ls : Nat) (l : List Nat) (s : Int) :
    arangeLoop size me ls l s
      = chainLoop size me ls tagArange (fun s => .coll [] fun _ => .ret (intRange s (s + ls))) l s := by
  induction l generalizing s with
  | nil => rfl
  | cons a l ih =>
    unfold arangeLoop chainLoop
    simp only [ih]

theorem distDimLoop_eq (name : String) (size me ls : Nat) (g : Int) (l : List Nat) (s : Int) :
    distDimLoop name size me ls g l s = chainLoop size me ls tagDistDim (distDimFinish name ls g) l s := by
  induction l generalizing s with
  | nil => rfl
  | cons a l ih =>
    unfold distDimLoop chainLoop
    simp only [ih]

theorem arange_returns (n : Nat) (hn : 0 < n) (sizes : Nat → Nat) (start : Int) :
    AlwaysReturns n (fun r => arange n r (sizes r) start)
      (fun r => intRange (start + prefixSize sizes r) (start + prefixSize sizes r + sizes r)) := by
  apply returns_of_reach
  unfold Comm.start
  have e : (List.range n).map (fun r => arange n r (sizes r) start)
      = (List.range n).map (fun r => chain n r (sizes r) tagArange
          ((fun r (s : Int) => (.coll [] fun _ => .ret (intRange s (s + sizes r)) : Proc (List Int))) r) start) := by
    apply map_range_congr
    intro r hr
    unfold arange
    rw [arangeLoop_eq, chainLoop_eq _ _ _ _ _ hr]
  rw [e]
  refine (chain_reach n tagArange start sizes _).trans ?_
  exact reach_coll n hn (fun _ => []) (fun r _ => .ret (intRange (start + prefixSize sizes r) (start + prefixSize sizes r + sizes r))) Chan.empty

theorem sum_range_eq (sizes : Nat → Nat) (n : Nat) :
    ((List.range n).map (fun r => (sizes r : Int))).sum = prefixSize sizes n := by
  induction n with
  | zero => rfl
  | succ n ih => rw [List.range_succ, List.map_append, List.sum_append, ih]; simp [prefixSize]

theorem distDim_returns (name : String) (n : Nat) (hn : 0 < n) (sizes : Nat → Nat) :
    AlwaysReturns n (fun r => createDistributedDimension name n r (sizes r))
      (fun r => ⟨name, some (sizes r), some (sizes r), true, decide (sizes r = 0),
        some ((prefixSize sizes r : Int), (prefixSize sizes (r + 1) : Int)), some (0, (prefixSize sizes n : Int)), none⟩) := by
  apply returns_of_reach
  unfold Comm.start createDistributedDimension
  refine (reach_coll n hn (fun r => [(sizes r : Int)]) _ _).trans ?_
  refine (reach_coll n hn _ _ _).trans ?_
  have e1 : ((List.range n).map (fun r => [(sizes r : Int)])).map (·.headD 0) = (List.range n).map (fun r => (sizes r : Int)) := by
    simp [Function.comp_def]
  have e2 : (((List.range n).map (fun (_ : Nat) => [((((List.range n).map (fun r => [(sizes r : Int)])).map (·.headD 0))).sum])).headD []).headD 0
      = prefixSize sizes n := by
    rw [e1, sum_range_eq]
    cases n with
    | zero => omega
    | succ n => rw [List.range_succ_eq_map]; rfl
  have e : (List.range n).map (fun i => distDimLoop name n i (sizes i)
        ((((List.range n).map (fun (_ : Nat) => [((((List.range n).map (fun r => [(sizes r : Int)])).map (·.headD 0))).sum])).headD []).headD 0)
        (List.range n) 0)
      = (List.range n).map (fun r => chain n r (sizes r) tagDistDim ((fun r => distDimFinish name (sizes r) (prefixSize sizes n)) r) 0) := by
    apply map_range_congr
    intro r hr
    rw [e2, distDimLoop_eq, chainLoop_eq _ _ _ _ _ hr]
  rw [e]
  have h := chain_reach n tagDistDim 0 sizes (fun r => distDimFinish name (sizes r) (prefixSize sizes n))
  have e3 : (List.range n).map (fun r => distDimFinish name (sizes r) (prefixSize sizes n) (0 + prefixSize sizes r))
      = (List.range n).map (fun r => Proc.ret (⟨name, some (sizes r), some (sizes r), true, decide (sizes r = 0),
        some ((prefixSize sizes r : Int), (prefixSize sizes (r + 1) : Int)), some (0, (prefixSize sizes n : Int)), none⟩ : Dim)) := by
    apply map_range_congr
    intro r _
    unfold distDimFinish
    simp [prefixSize]
  rw [e3] at h
  exact h

/-- Identifiers' start values in flight from the root to the ranks `lo ≤ d < hi`. -/
def ugidChan (start : Int) (sizes : Nat → Nat) (lo hi : Nat) : Chan :=
  fun s d t => if s = 0 ∧ t = tagUgid ∧ lo ≤ d ∧ d < hi then [[start + prefixSize sizes d]] else []

theorem ugidChan_push (start : Int) (sizes : Nat → Nat) (j : Nat) (hj : 1 ≤ j) :
    (ugidChan start sizes 1 j).push 0 j tagUgid [start + prefixSize sizes j] = ugidChan start sizes 1 (j + 1) := by
  funext s d t
  unfold Chan.push ugidChan
  grind

theorem ugidChan_pop (start : Int) (sizes : Nat → Nat) (j n : Nat) :
    (ugidChan start sizes j n).pop 0 j tagUgid = ugidChan start sizes (j + 1) n := by
  funext s d t
  unfold Chan.pop ugidChan
  grind

theorem ugidRoot_run (start : Int) (sizes : Nat → Nat) (k : Int → Proc (List Int)) (rs : Int) (n m j : Nat) (hj : 1 ≤ j)
    (hm : j + m = n) :
    Run 0 (ugidRootLoop ((List.range n).map (fun r => (sizes r : Int))) k (List.range' j m) (start + prefixSize sizes j) rs, ugidChan start sizes 1 j)
      (k rs, ugidChan start sizes 1 n) := by
  induction m generalizing j with
  | zero =>
    have : j = n := by omega
    subst this
    exact .refl _
  | succ m ih =>
    rw [List.range'_succ, ugidRootLoop, if_neg (by omega)]
    refine .cons (.send _ _ _ _ _) ?_
    rw [ugidChan_push _ _ _ hj]
    have e : start + (prefixSize sizes j : Int) + ((List.range n).map (fun r => (sizes r : Int))).getD j 0
        = start + prefixSize sizes (j + 1) := by
      rw [List.getD_eq_getElem?_getD, List.getElem?_map, List.getElem?_range (by omega)]
      simp only [Option.map_some, Option.getD_some, prefixSize]
      omega
    rw [e]
    exact ih (j + 1) (by omega) (by omega)

theorem ugid_returns (n : Nat) (hn : 0 < n) (sizes : Nat → Nat) (hpos : ∀ r, r < n → 0 < sizes r) (start : Int) :
    AlwaysReturns n (fun r => ugidGlobal n r (sizes r) start)
      (fun r => intRange (start + prefixSize sizes r) (start + prefixSize sizes r + sizes r)) := by
  apply returns_of_reach
  unfold Comm.start
  have e : (List.range n).map (fun r => ugidGlobal n r (sizes r) start)
      = (List.range n).map (fun r => Proc.coll [(sizes r : Int)] ((fun r gathered =>
        if r = 0 then ugidRootLoop (gathered.map (·.headD 0)) (fun s => .ret (intRange s (s + sizes r))) (List.range n) start 0
        else .recv 0 tagUgid fun v => Proc.ofRes (Msg.scalar v) (fun s => .ret (intRange s (s + sizes r)))) r)) := by
    apply map_range_congr
    intro r hr
    have := hpos r hr
    unfold ugidGlobal
    rw [if_neg (by omega)]
  rw [e]
  refine (reach_coll n hn _ _ _).trans ?_
  have e1 : ((List.range n).map (fun r => [(sizes r : Int)])).map (·.headD 0) = (List.range n).map (fun r => (sizes r : Int)) := by
    simp [Function.comp_def]
  simp only [e1]
  have h := reach_sequential n (fun r =>
        if r = 0 then ugidRootLoop ((List.range n).map (fun r => (sizes r : Int))) (fun s => .ret (intRange s (s + sizes r))) (List.range n) start 0
        else .recv 0 tagUgid fun v => Proc.ofRes (Msg.scalar v) (fun s => .ret (intRange s (s + sizes r))))
    (fun r => Proc.ret (intRange (start + prefixSize sizes r) (start + prefixSize sizes r + sizes r)))
    (fun r => if r = 0 then Chan.empty else ugidChan start sizes r n) ?_
  · have h1 : (ugidChan start sizes n n) = Chan.empty := by
      funext s d t
      unfold ugidChan Chan.empty
      rw [if_neg (by omega)]
    simp only [if_true] at h
    rw [if_neg (by omega), h1] at h
    exact h
  · intro r hr
    by_cases h0 : r = 0
    · subst h0
      simp only [if_true]
      rw [if_neg (by omega)]
      have e2 : List.range n = 0 :: List.range' 1 (n - 1) := by
        rw [List.range_eq_range']
        conv => lhs; rw [show n = n - 1 + 1 by omega, List.range'_succ]
      have e3 : Chan.empty = ugidChan start sizes 1 1 := by
        funext s d t
        unfold ugidChan Chan.empty
        rw [if_neg (by omega)]
      rw [show ugidRootLoop ((List.range n).map (fun r => (sizes r : Int))) (fun s => .ret (intRange s (s + sizes 0))) (List.range n) start 0
        = ugidRootLoop ((List.range n).map (fun r => (sizes r : Int))) (fun s => .ret (intRange s (s + sizes 0))) (List.range' 1 (n - 1)) (start + prefixSize sizes 1) start by
          conv => lhs; arg 3; rw [e2]
          rw [ugidRootLoop, if_pos rfl]
          congr 1
          rw [List.getD_eq_getElem?_getD, List.getElem?_map, List.getElem?_range hn]
          simp [prefixSize]]
      rw [e3]
      have := ugidRoot_run start sizes (fun s => .ret (intRange s (s + sizes 0))) start n (n - 1) 1 (by omega) (by omega)
      simpa [prefixSize] using this
    · simp only [if_neg h0]
      rw [if_neg (by omega)]
      refine .cons (.recv _ _ _ _ [start + prefixSize sizes r] [] (by simp [ugidChan, hr])) ?_
      rw [ugidChan_pop]
      simp only [Msg.scalar, Proc.ofRes]
      exact .refl _

end Ocgis.Comm
