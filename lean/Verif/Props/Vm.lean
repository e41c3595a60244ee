import Verif.Spec.Vm
/-!
# C11, C12: communicator scopes and the serial communicator
-/
namespace Ocgis.Props
open Ocgis.Spec Ocgis.Vm

theorem create_other {name : String} {ranks : List Nat} {ic cl : Bool} {vm vm' : Vm}
    (h : createSubcomm name ranks ic cl vm = .ok vm') :
    vm'.dummy = vm.dummy ∧ vm'.me = vm.me ∧ vm'.base = vm.base ∧ vm'.current = (if ic then some name else vm.current) ∧
      (vm'.sub name).isSome ∧ ∀ a, a ≠ name → vm'.sub a = vm.sub a := by
  unfold createSubcomm at h
  cases hd : vm.dummy
  · rw [hd] at h
    simp only [Bool.false_eq_true, if_false] at h
    by_cases hr : ranks = []
    · rw [if_pos hr] at h
      cases h
      exact ⟨rfl, rfl, rfl, rfl, by simp [setSub], fun a ha => by simp [setSub, ha]⟩
    · rw [if_neg hr] at h
      cases h1 : vm.comm with
      | error e => rw [h1] at h; cases h
      | ok c =>
        rw [h1] at h
        cases h2 : mpiCreate vm.me c ranks with
        | error e => simp [h2, bind, Except.bind] at h
        | ok new =>
          simp only [h2, bind, Except.bind] at h
          split at h
          · cases h
          · cases h
            exact ⟨rfl, rfl, rfl, rfl, by simp [setSub], fun a ha => by simp [setSub, ha]⟩
  · rw [hd] at h
    cases h
    exact ⟨rfl, rfl, rfl, rfl, by simp [setSub], fun a ha => by simp [setSub, ha]⟩

theorem create_taken {name : String} {ranks : List Nat} {vm vm' : Vm} (hd : vm.dummy = false) (hr : ranks ≠ [])
    (h : createSubcomm name ranks true false vm = .ok vm') : vm.sub name = none := by
  unfold createSubcomm at h
  rw [hd] at h
  simp only [Bool.false_eq_true, if_false, hr, bind, Except.bind] at h
  cases h1 : vm.comm with
  | error e => rw [h1] at h; cases h
  | ok c =>
    rw [h1] at h
    cases h2 : mpiCreate vm.me c ranks with
    | error e => simp [h2] at h
    | ok new =>
      cases hs : vm.sub name with
      | none => rfl
      | some x => simp [h2, hs] at h

theorem free_ok {name : String} {vm vm' : Vm} (hd : vm.dummy = false) (h : freeSubcomm name vm = .ok vm') :
    vm'.dummy = false ∧ vm'.base = vm.base ∧ vm'.sub name = none ∧ ∀ a, a ≠ name → vm'.sub a = vm.sub a := by
  unfold freeSubcomm at h
  rw [hd] at h
  simp only [Bool.false_eq_true, if_false] at h
  cases hs : vm.sub name with
  | none => rw [hs] at h; cases h
  | some c => rw [hs] at h; cases h; exact ⟨rfl, rfl, by simp [setSub], fun a ha => by simp [setSub, ha]⟩

/-- A respectful statement leaves the scopes around it as they are. -/
theorem run_respects (p : Prog) : ∀ (A : List String) (vm : Vm), vm.dummy = false → Respects A p →
    (∀ a ∈ A, (vm.sub a).isSome) →
    (run p vm).2.dummy = false ∧ (run p vm).2.base = vm.base ∧ ∀ a ∈ A, (run p vm).2.sub a = vm.sub a := by
  induction p with
  | skip => intro A vm hd _ _; exact ⟨hd, rfl, fun _ _ => rfl⟩
  | raise e => intro A vm hd _ _; exact ⟨hd, rfl, fun _ _ => rfl⟩
  | set n => intro A vm hd _ _; exact ⟨hd, rfl, fun _ _ => rfl⟩
  | seq a b iha ihb =>
    intro A vm hd hr hA
    obtain ⟨h1, h2, h3⟩ := iha A vm hd hr.1 hA
    have hA' : ∀ x ∈ A, ((run a vm).2.sub x).isSome := fun x hx => by rw [h3 x hx]; exact hA x hx
    obtain ⟨g1, g2, g3⟩ := ihb A (run a vm).2 h1 hr.2 hA'
    unfold run
    rcases e : run a vm with ⟨o, vm'⟩
    rw [e] at h1 h2 h3 g1 g2 g3
    cases o with
    | none => exact ⟨g1, g2.trans h2, fun x hx => (g3 x hx).trans (h3 x hx)⟩
    | some e => exact ⟨h1, h2, h3⟩
  | attempt a iha => intro A vm hd hr hA; exact iha A vm hd hr hA
  | scope name ranks body ih =>
    intro A vm hd hr hA
    unfold run
    cases hc : createSubcomm name ranks true false vm with
    | error e => exact ⟨hd, rfl, fun _ _ => rfl⟩
    | ok vm1 =>
      obtain ⟨c1, _, c3, _, c5, c6⟩ := create_other hc
      have hnA : name ∉ A := by
        intro hn
        have := create_taken hd (hr.1 hn) hc
        have h' := hA name hn
        rw [this] at h'; cases h'
      have hA1 : ∀ a ∈ name :: A, (vm1.sub a).isSome := by
        intro a ha
        rcases List.mem_cons.1 ha with h | h
        · rw [h]; exact c5
        · rw [c6 a (fun e => hnA (e ▸ h))]; exact hA a h
      obtain ⟨b1, b2, b3⟩ := ih (name :: A) vm1 (c1.trans hd) hr.2 hA1
      have hA2 : ∀ a ∈ A, (run body vm1).2.sub a = vm.sub a := fun a ha => by
        rw [b3 a (List.mem_cons_of_mem _ ha), c6 a (fun e => hnA (e ▸ ha))]
      simp only
      cases hf : freeSubcomm name (run body vm1).2 with
      | error e => exact ⟨b1, b2.trans c3, hA2⟩
      | ok vm3 =>
        obtain ⟨f1, f2, _, f4⟩ := free_ok b1 hf
        refine ⟨f1, f2.trans (b2.trans c3), fun a ha => ?_⟩
        exact (f4 a (fun e => hnA (e ▸ ha))).trans (hA2 a ha)
  | byName name body ih =>
    intro A vm hd hr hA
    obtain ⟨h1, h2, h3⟩ := ih A (setComm name vm) hd hr hA
    exact ⟨h1, h2, h3⟩
  | scopedBarrier f l body ih =>
    intro A vm hd hr hA
    have := ih A vm hd hr hA
    unfold run
    split
    · exact ⟨hd, rfl, fun _ _ => rfl⟩
    · split
      · exact this
      · exact this
  | create name ranks ic cl =>
    intro A vm hd hr hA
    unfold run
    cases hc : createSubcomm name ranks ic cl vm with
    | error e => exact ⟨hd, rfl, fun _ _ => rfl⟩
    | ok vm1 =>
      obtain ⟨c1, _, c3, _, c5, c6⟩ := create_other hc
      exact ⟨c1.trans hd, c3, fun a ha => c6 a (fun e => hr (e ▸ ha))⟩
  | free name =>
    intro A vm hd hr hA
    unfold run
    cases hf : freeSubcomm name vm with
    | error e => exact ⟨hd, rfl, fun _ _ => rfl⟩
    | ok vm3 =>
      obtain ⟨f1, f2, _, f4⟩ := free_ok hd hf
      exact ⟨f1, f2, fun a ha => f4 a (fun e => hr (e ▸ ha))⟩

/-- C11 on a parallel virtual machine: take any scope with any body (nested scopes, failures, hand-made
sub-communicators), where `active` are the scopes around it, including the current one.  If the scope is entered, then
afterwards - whether the body returned or raised - the current communicator (by name and by value) is the one
before, the scope's sub-communicator is gone, the scopes around it still have theirs, and the outcome of the scope is
the outcome of the body.  If it cannot be entered, nothing changes.  Missing: bodies that open a scope under the
name of a surrounding one with an empty rank list (`C11_same_name_counterexample`), or free a surrounding scope's name. -/
theorem C11_scope_restores_partial (active : List String) (vm : Vm) (hd : vm.dummy = false)
    (hact : ∀ a ∈ active, (vm.sub a).isSome) (hcur : ∀ n, vm.current = some n → n ∈ active)
    (name : String) (ranks : List Nat) (body : Prog) (hr : Respects active (.scope name ranks body)) :
    let after := run (.scope name ranks body) vm
    after.2.current = vm.current ∧ after.2.comm = vm.comm ∧ (∀ a ∈ active, after.2.sub a = vm.sub a) ∧
      match createSubcomm name ranks true false vm with
      | .error e => after = (some e, vm)
      | .ok entered => after.2.sub name = none ∧ after.1 = (run body entered).1 := by
  have key := run_respects (.scope name ranks body) active vm hd hr hact
  intro after
  have fin : after.2.current = vm.current ∧ match createSubcomm name ranks true false vm with
      | .error e => after = (some e, vm)
      | .ok entered => after.2.sub name = none ∧ after.1 = (run body entered).1 := by
    change ((run (.scope name ranks body) vm).2.current = vm.current) ∧ _
    have ha : after = run (.scope name ranks body) vm := rfl
    rw [ha, run]
    cases hc : createSubcomm name ranks true false vm with
    | error e => exact ⟨rfl, rfl⟩
    | ok vm1 =>
      obtain ⟨c1, _, c3, _, c5, c6⟩ := create_other hc
      have hnA : name ∉ active := by
        intro hn
        have := create_taken hd (hr.1 hn) hc
        have h' := hact name hn
        rw [this] at h'; cases h'
      have hA1 : ∀ a ∈ name :: active, (vm1.sub a).isSome := by
        intro a ha
        rcases List.mem_cons.1 ha with h | h
        · rw [h]; exact c5
        · rw [c6 a (fun e => hnA (e ▸ h))]; exact hact a h
      obtain ⟨b1, _, b3⟩ := run_respects body (name :: active) vm1 (c1.trans hd) hr.2 hA1
      have hs : ((run body vm1).2.sub name).isSome := by rw [b3 name (by simp)]; exact c5
      simp only
      cases hf : freeSubcomm name (run body vm1).2 with
      | error e =>
        unfold freeSubcomm at hf
        rw [b1] at hf
        simp only [Bool.false_eq_true, if_false] at hf
        cases hx : (run body vm1).2.sub name with
        | none => rw [hx] at hs; cases hs
        | some c => rw [hx] at hf; cases hf
      | ok vm3 => exact ⟨rfl, (free_ok b1 hf).2.2.1, rfl⟩
  refine ⟨fin.1, ?_, key.2.2, fin.2⟩
  have hc := fin.1
  unfold Vm.comm
  rw [hc]
  cases e : vm.current with
  | none => exact congrArg Except.ok key.2.1
  | some n => simp only; rw [show after.2.sub n = vm.sub n from key.2.2 n (hcur n e)]

/-- The condition is met by nested scopes of different names, with a failure inside. -/
example : Respects [] (.scope "outer" [0, 2] (.seq (.attempt (.scope "inner" [] (.raise .valueError)))
    (.scope "inner" [1] (.byName none (.scopedBarrier true true (.raise .keyError)))))) := by
  simp [Respects]

/-- A parallel virtual machine on process 0 of three. -/
def vm3 : Vm := ⟨0, false, .group [0, 1, 2], fun _ => none, none⟩

/-- C11 is false of the code when an inner scope reuses the name of a surrounding scope and this process sees an empty
rank list: the inner scope silently replaces and then frees the outer communicator, the outer scope's exit
fails, and the current communicator is left pointing to a name that no longer exists. -/
theorem C11_same_name_counterexample :
    let after := run (.scope "s" [0, 1] (.scope "s" [] .skip)) vm3
    vm3.comm = .ok (.group [0, 1, 2]) ∧ after.1 = some .subcommNotFound ∧ after.2.current = some "s" ∧
      after.2.comm = .error .subcommNotFound := by
  refine ⟨rfl, ?_, ?_, ?_⟩ <;> decide

/-- C11 with the serial communicator: whatever the statement inside, the scope restores the current name, and the
communicator is always the serial one. -/
theorem C11_serial_restores (vm : Vm) (hd : vm.dummy = true) (name : String) (ranks : List Nat) (body : Prog) :
    (run (.scope name ranks body) vm).2.current = vm.current ∧
      ∃ entered, createSubcomm name ranks true false vm = .ok entered ∧ entered.comm = .ok vm.base ∧
        (run (.scope name ranks body) vm).1 = (run body entered).1 := by
  have hdummy : ∀ (p : Prog) (vm : Vm), vm.dummy = true → (run p vm).2.dummy = true := by
    intro p
    induction p with
    | skip | raise | set => intro vm h; exact h
    | seq a b iha ihb =>
      intro vm h
      have h1 := iha vm h
      unfold run
      rcases e : run a vm with ⟨o, vm'⟩
      rw [e] at h1
      cases o with
      | none => exact ihb _ h1
      | some e => exact h1
    | attempt a ih => intro vm h; exact ih vm h
    | scope n r b ih =>
      intro vm h
      unfold run
      cases hc : createSubcomm n r true false vm with
      | error e => exact h
      | ok vm1 =>
        have h1 := ih vm1 ((create_other hc).1.trans h)
        simp only [freeSubcomm, h1, if_true]
        exact h1
    | byName n b ih => intro vm h; exact ih (setComm n vm) h
    | scopedBarrier f l b ih =>
      intro vm h
      unfold run
      split
      · exact h
      · split <;> exact ih vm h
    | create n r ic cl =>
      intro vm h
      unfold run
      cases hc : createSubcomm n r ic cl vm with
      | error e => exact h
      | ok vm1 => exact (create_other hc).1.trans h
    | free n =>
      intro vm h
      unfold run
      simp only [freeSubcomm, h, if_true]
  have hc : createSubcomm name ranks true false vm
      = .ok { vm with sub := setSub vm.sub name (some vm.base), current := some name } := by
    unfold createSubcomm
    rw [hd]; rfl
  have hb := hdummy body { vm with sub := setSub vm.sub name (some vm.base), current := some name } hd
  have hrun : run (.scope name ranks body) vm
      = ((run body { vm with sub := setSub vm.sub name (some vm.base), current := some name }).1,
          setComm vm.current (run body { vm with sub := setSub vm.sub name (some vm.base), current := some name }).2) := by
    rw [run]
    simp only [hc, freeSubcomm, hb, if_true]
  refine ⟨by rw [hrun]; rfl, _, hc, ?_, by rw [hrun]⟩
  simp [Vm.comm, setSub]

/-- C11, scopes by name: the body runs with the named communicator as the current one; afterwards, whether it returned or raised,
the current name is the one before, everything else is as the body left it, and the outcome is the body's. -/
theorem C11_by_name_restores (vm : Vm) (name : Option String) (body : Prog) :
    let entered : Vm := { vm with current := name }
    let after := run (.byName name body) vm
    after.1 = (run body entered).1 ∧ after.2 = { (run body entered).2 with current := vm.current } := by
  exact ⟨rfl, rfl⟩

/-- C11, barrier scopes: the body runs exactly if the first barrier (if any) is passed, and its changes are kept; an exception of the
last barrier replaces the body's outcome, otherwise the outcome is the body's. -/
theorem C11_barrier_scope (vm : Vm) (first last : Bool) (body : Prog) :
    let after := run (.scopedBarrier first last body) vm
    (∀ e, first = true → barrier vm = .error e → after = (some e, vm)) ∧
    ((first = true → barrier vm = .ok ()) → after.2 = (run body vm).2 ∧
      (∀ e, last = true → barrier (run body vm).2 = .error e → after.1 = some e) ∧
      ((last = true → barrier (run body vm).2 = .ok ()) → after.1 = (run body vm).1)) := by
  intro after
  have ha : after = run (.scopedBarrier first last body) vm := rfl
  rw [run] at ha
  constructor
  · intro e hf he
    rw [ha, hf, if_pos rfl, he]
  · intro hf
    have h1 : (if first = true then barrier vm else .ok ()) = .ok () := by
      by_cases h : first = true
      · rw [if_pos h, hf h]
      · rw [if_neg h]
    rw [h1] at ha
    simp only at ha
    by_cases hl : last = true
    · rw [if_pos hl] at ha
      cases hb : barrier (run body vm).2 with
      | error e =>
        rw [hb] at ha
        exact ⟨by rw [ha], fun e' _ he' => by rw [ha]; injection he' with he'; rw [he'], fun h => by cases h hl⟩
      | ok u =>
        rw [hb] at ha
        exact ⟨by rw [ha], fun e' _ he' => (by cases he'), fun _ => by rw [ha]⟩
    · rw [if_neg hl] at ha
      exact ⟨by rw [ha], fun e h => absurd h hl, fun _ => by rw [ha]⟩

/-- A scope by name inside a scope, with a failing body; a barrier on the null communicator. -/
example : (run (.scope "s" [0, 1] (.attempt (.byName none (.raise .keyError)))) vm3).2.current = none ∧
    (run (.scope "s" [1] (.attempt (.scopedBarrier true true .skip))) vm3).1 = none ∧
    (run (.scope "s" [1] (.scopedBarrier true true .skip)) vm3).1 = some .runtimeError := by decide

/-- With the serial communicator the name of a finished scope stays registered (it still denotes the serial
communicator). -/
theorem C11_serial_name_remains_counterexample :
    ((run (.scope "s" [0] .skip) ⟨0, true, .group [0], fun _ => none, none⟩).2.sub "s").isSome := by decide

theorem after_append (h : List Op) (op : Op) : after (h ++ [op]) = (step (after h) op).2 := by
  unfold after
  rw [List.foldl_append]
  rfl

/-- C12: after every history of sends, polls and receives, the serial communicator holds for each source and tag
exactly the latest payload sent to them and not received since; so `Test` answers whether there is one, and
`wait` delivers it and returns, or spins when there is none. -/
theorem C12_serial_delivery (history : List Op) (source : Nat) (tag : Int) :
    (step (after history) (.test source tag)).1 = .tested (waiting history source tag).isSome ∧
    (step (after history) (.wait source tag)).1 =
      (match waiting history source tag with | some p => .received p | none => .spins) := by
  have key : ∀ h : List Op, ∀ s t, after h.reverse s t = waiting h.reverse s t := by
    intro h
    induction h with
    | nil => intro s t; rfl
    | cons op h ih =>
      intro s t
      have e : waiting (op :: h).reverse s t = match op with
          | .send p d t' => if d = s ∧ t' = t then some p else waiting h.reverse s t
          | .wait s' t' => if s' = s ∧ t' = t then none else waiting h.reverse s t
          | .test _ _ => waiting h.reverse s t := by
        simp only [waiting, List.reverse_cons, List.reverse_append, List.reverse_nil, List.nil_append, List.singleton_append,
          List.reverse_reverse, List.find?_cons]
        cases op with
        | send p d t' =>
          by_cases c : d = s ∧ t' = t
          · simp [c.1, c.2]
          · have : (d == s && t' == t) = false := by simpa using c
            simp [this, c]
        | wait s' t' =>
          by_cases c : s' = s ∧ t' = t
          · simp [c.1, c.2]
          · have : (s' == s && t' == t) = false := by simpa using c
            simp [this, c]
        | test => simp
      rw [e, List.reverse_cons, after_append]
      cases op with
      | send p d t' =>
        simp only [step]
        by_cases c : d = s ∧ t' = t
        · rw [if_pos ⟨c.1.symm, c.2.symm⟩, if_pos c]
        · rw [if_neg (fun x => c ⟨x.1.symm, x.2.symm⟩), if_neg c, ih]
      | wait s' t' =>
        simp only [step]
        cases hv : after h.reverse s' t' with
        | none =>
          by_cases c : s' = s ∧ t' = t
          · rw [if_pos c]; obtain ⟨rfl, rfl⟩ := c; exact hv
          · rw [if_neg c]; exact ih s t
        | some p =>
          by_cases c : s' = s ∧ t' = t
          · simp [c.1, c.2]
          · simp only
            rw [if_neg (fun x => c ⟨x.1.symm, x.2.symm⟩), if_neg c, ih]
      | test => exact ih s t
  have hk := key history.reverse source tag
  rw [List.reverse_reverse] at hk
  refine ⟨by simp only [step, hk], ?_⟩
  simp only [step, hk]
  cases waiting history source tag <;> rfl

/-- C12: a message is delivered once, and messages for other sources or tags are unaffected by a receive. -/
theorem C12_once_and_separate (history : List Op) (source : Nat) (tag : Int) :
    waiting (history ++ [.wait source tag]) source tag = none ∧
    (∀ s t, (s, t) ≠ (source, tag) → waiting (history ++ [.wait source tag]) s t = waiting history s t) ∧
    ∀ p, waiting (history ++ [.send p source tag]) source tag = some p ∧
      ∀ s t, (s, t) ≠ (source, tag) → waiting (history ++ [.send p source tag]) s t = waiting history s t := by
  have sep : ∀ s t, (s, t) ≠ (source, tag) → (source == s && tag == t) = false := by
    intro s t h
    simp only [Bool.and_eq_false_iff, beq_eq_false_iff_ne]
    by_cases a : source = s
    · right; rintro rfl; exact h (by rw [a])
    · left; exact a
  refine ⟨by simp [waiting], ?_, fun p => ⟨by simp [waiting], ?_⟩⟩
  · intro s t h
    simp [waiting, sep s t h]
  · intro s t h
    simp [waiting, sep s t h]

example : waiting [.send 5 0 1, .send 6 0 2, .test 0 1, .send 7 0 1, .wait 0 2] 0 1 = some 7 := by decide

/-- C12: the serial collectives are those of one process; a scatter delivers the first element, and fails on an empty sequence. -/
theorem C12_serial_collectives {α : Type} (x : α) :
    dummyBcast x = x ∧ dummyGather x = [x] ∧ (∀ xs, dummyScatter (x :: xs) = .ok x) ∧
    dummyScatter ([] : List α) = .error .indexError ∧ dummyReduce x = x :=
  ⟨rfl, rfl, fun _ => rfl, rfl, rfl⟩

end Ocgis.Props
