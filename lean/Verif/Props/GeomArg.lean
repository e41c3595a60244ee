import Verif.Proofs.GeomArg

namespace Ocgis.Props
open Ocgis Ocgis.GeomArg Ocgis.Spec

/-- After construction and any history of assignments of geometries and of identifiers to select, the geometries used are those
that the geometry last accepted stands for, with the identifiers last selected.  Missing: assigning the condition, the
identifier's name or the aggregation afterwards; iterators with identifiers of their own; text with other than two or four
numbers (see the counterexamples). -/
theorem C74_used_partial (disk : Disk) (kw : Kw) (i : Input) (o : Ops) (h : construct disk kw i = .ok o) (as : List Assign)
    (has : ∀ a ∈ as, Selecting a) (hi : OrdinaryInput i) (hord : ∀ j, Assign.geom j ∈ as → OrdinaryInput j) :
    (assignAll disk o as).kw = { kw with selectUid := lastSelect kw.selectUid as } ∧
    StandsFor disk { kw with selectUid := lastSelect kw.selectUid as } (lastGeom disk i as) (assignAll disk o as).geom.read := by
  have key : ∀ (as : List Assign) (o : Ops) (i : Input), (∀ a ∈ as, Selecting a) → OrdinaryInput i →
      (∀ j, Assign.geom j ∈ as → OrdinaryInput j) → o.geom.kw = o.kw → StandsFor disk o.kw i o.geom.read →
      (assignAll disk o as).kw = { o.kw with selectUid := lastSelect o.kw.selectUid as } ∧
      StandsFor disk { o.kw with selectUid := lastSelect o.kw.selectUid as } (lastGeom disk i as) (assignAll disk o as).geom.read := by
    intro as
    induction as with
    | nil => intro o i _ _ _ _ hm; exact ⟨rfl, hm⟩
    | cons a as ih =>
      intro o i hsel hi hord hkw hm
      have hsel' := fun x hx => hsel x (List.mem_cons_of_mem a hx)
      have hord' := fun j hj => hord j (List.mem_cons_of_mem a hj)
      cases a with
      | selectUid v =>
        have := ih ⟨{ o.kw with selectUid := v }, { o.geom with kw := { o.geom.kw with selectUid := v } }⟩ i hsel' hi hord'
          (by rw [hkw]) (by
            have := means_select disk o.geom i hi v (by rw [hkw]; exact hm)
            rw [hkw] at this ⊢
            exact this)
        have e1 : lastSelect o.kw.selectUid (.selectUid v :: as) = lastSelect v as := by
          simp only [lastSelect, List.filterMap_cons]
          rw [List.getLastD_cons]
        have e2 : lastGeom disk i (.selectUid v :: as) = lastGeom disk i as := by
          simp [lastGeom, accepted]
        rw [e1, e2]
        exact this
      | geom j =>
        have e1 : lastSelect o.kw.selectUid (.geom j :: as) = lastSelect o.kw.selectUid as := by
          simp [lastSelect]
        obtain ⟨hok, herr⟩ := set_means disk o.geom j (hord j List.mem_cons_self)
        cases hac : acceptable disk j with
        | true =>
          obtain ⟨p, hp, hpk, hpm⟩ := hok hac
          have e2 : lastGeom disk i (.geom j :: as) = lastGeom disk j as := by
            unfold lastGeom
            rw [show accepted disk (.geom j :: as) = j :: accepted disk as by simp [accepted, hac], List.getLastD_cons]
          rw [e1, e2]
          have hpeq : ({ p with kw := { p.kw with selectUid := o.kw.selectUid } } : Parm) = p := by
            rw [hpk, hkw]
            rw [hkw] at hpk
            rw [← hpk]
          have := ih ⟨o.kw, p⟩ j hsel' (hord j List.mem_cons_self) hord' (hpk.trans hkw) (by rw [hkw] at hpm; exact hpm)
          have hstep : assign disk o (.geom j) = .ok ⟨o.kw, p⟩ := by
            simp only [assign, hp, hpeq]
          rw [assignAll, hstep]
          exact this
        | false =>
          obtain ⟨e, he⟩ := herr hac
          have e2 : lastGeom disk i (.geom j :: as) = lastGeom disk i as := by
            simp [lastGeom, accepted, hac]
          rw [e1, e2]
          have hstep : assign disk o (.geom j) = .error e := by simp only [assign, he]
          rw [assignAll, hstep]
          exact ih o i hsel' hi hord' hkw hm
      | sqlWhere v => exact absurd (hsel _ List.mem_cons_self) id
      | uid v => exact absurd (hsel _ List.mem_cons_self) id
      | union v => exact absurd (hsel _ List.mem_cons_self) id
  unfold construct at h
  split at h
  · rename_i p hp
    injection h with h
    subst h
    obtain ⟨hok, herr⟩ := set_means disk { kw := kw } i hi
    cases hac : acceptable disk i with
    | true =>
      obtain ⟨q, hq, hqk, hqm⟩ := hok hac
      rw [hp] at hq
      injection hq with hq
      subst hq
      exact key as ⟨kw, p⟩ i has hi hord hqk hqm
    | false =>
      obtain ⟨e, he⟩ := herr hac
      rw [hp] at he
      cases he
  · cases h

/-- Non-vacuity: a file, then a box, then a refused box, then identifiers. -/
example : ∃ o, construct ⟨fun _ => false, fun _ => false⟩ { sqlWhere := some "A = 1" } (.nameText "states") = .ok o ∧
    lastGeom ⟨fun _ => false, fun _ => false⟩ (.nameText "states")
      [.selectUid (some [3]), .geom (.numbers [0, 0, 0, 1])] = .nameText "states" ∧
    (assignAll ⟨fun _ => false, fun _ => false⟩ o [.selectUid (some [3]), .geom (.numbers [0, 0, 0, 1])]).geom.read =
      .file ⟨some "states", none, { sqlWhere := some "A = 1", selectUid := some [3] }⟩ := by
  refine ⟨_, rfl, ?_, rfl⟩
  have : acceptable ⟨fun _ => false, fun _ => false⟩ (.numbers [0, 0, 0, 1]) = false := by decide +kernel
  simp [lastGeom, accepted, this]

/-- Which geometries are accepted does not depend on the selection arguments, and construction accepts exactly those. -/
theorem C74_accepts_partial (disk : Disk) (kw : Kw) (i : Input) (hi : OrdinaryInput i) :
    (∃ o, construct disk kw i = .ok o) ↔ acceptable disk i = true := by
  obtain ⟨hok, herr⟩ := set_means disk { kw := kw } i hi
  unfold construct
  constructor
  · rintro ⟨o, h⟩
    cases hac : acceptable disk i with
    | true => rfl
    | false =>
      obtain ⟨e, he⟩ := herr hac
      rw [he] at h
      cases h
  · intro hac
    obtain ⟨q, hq, -⟩ := hok hac
    rw [hq]
    exact ⟨_, rfl⟩

/-- After construction and any history of assignments the metadata describes the geometry last accepted, provided it is a file,
or numbers with no file before, or other geometries with neither before.  Missing: a box or other geometry assigned after a file
(see the counterexample). -/
theorem C74_metadata_partial (disk : Disk) (kw : Kw) (i : Input) (o : Ops) (h : construct disk kw i = .ok o) (as : List Assign)
    (hi : NamedInput i) (hord : ∀ j, Assign.geom j ∈ as → NamedInput j)
    (hst : ∀ j ∈ i :: accepted disk as, standing j ≤ standing (lastGeom disk i as)) :
    Describes kw (lastGeom disk i as) (assignAll disk o as).geom.about := by
  have key : ∀ (as : List Assign) (o : Ops) (ins : List Input) (last : Input), (∀ j, Assign.geom j ∈ as → NamedInput j) →
      Remembers kw ins last o.geom →
      Remembers kw (ins ++ accepted disk as) (lastGeom disk last as) (assignAll disk o as).geom := by
    intro as
    induction as with
    | nil => intro o ins last _ hr; simpa [accepted, lastGeom, assignAll] using hr
    | cons a as ih =>
      intro o ins last hord hr
      have hord' := fun j hj => hord j (List.mem_cons_of_mem a hj)
      have hplain : ∀ kw' : Kw, (accepted disk (a :: as) = accepted disk as) →
          assign disk o a = .ok ⟨kw', { o.geom with kw := { o.geom.kw with selectUid := kw'.selectUid } }⟩ →
          Remembers kw (ins ++ accepted disk (a :: as)) (lastGeom disk last (a :: as)) (assignAll disk o (a :: as)).geom := by
        intro kw' h1 h2
        rw [assignAll, h2, lastGeom, h1]
        exact ih _ ins last hord' (remembers_select kw ins last o.geom _ hr)
      cases a with
      | selectUid v => exact hplain _ (by simp [accepted]) rfl
      | sqlWhere v => exact hplain { o.kw with sqlWhere := v } (by simp [accepted]) rfl
      | uid v => exact hplain { o.kw with uid := v } (by simp [accepted]) rfl
      | union v => exact hplain { o.kw with union := v } (by simp [accepted]) rfl
      | geom j =>
        have hn := hord j List.mem_cons_self
        obtain ⟨hok, herr⟩ := set_error_iff disk o.geom j hn
        cases hac : acceptable disk j with
        | true =>
          obtain ⟨q, hq⟩ := hok hac
          have hstep : assign disk o (.geom j) = .ok ⟨o.kw, { q with kw := { q.kw with selectUid := o.kw.selectUid } }⟩ := by
            simp only [assign, hq]
          have e1 : accepted disk (.geom j :: as) = j :: accepted disk as := by simp [accepted, hac]
          have e2 : lastGeom disk last (.geom j :: as) = lastGeom disk j as := by
            unfold lastGeom; rw [e1, List.getLastD_cons]
          rw [e2, e1, assignAll, hstep]
          have := ih ⟨o.kw, { q with kw := { q.kw with selectUid := o.kw.selectUid } }⟩ (ins ++ [j]) j hord'
            (remembers_select kw _ _ _ _ (set_remembers disk kw ins last j o.geom q hr hq hn))
          rw [List.append_assoc] at this
          exact this
        | false =>
          obtain ⟨e, he⟩ := herr hac
          have hstep : assign disk o (.geom j) = .error e := by simp only [assign, he]
          have e1 : accepted disk (.geom j :: as) = accepted disk as := by simp [accepted, hac]
          have e2 : lastGeom disk last (.geom j :: as) = lastGeom disk last as := by simp [lastGeom, e1]
          rw [e2, e1, assignAll, hstep]
          exact ih o ins last hord' hr
  unfold construct at h
  split at h
  · rename_i p hp
    injection h with h
    subst h
    have h0 : Remembers kw [] .none { kw := kw } :=
      ⟨rfl, fun _ => rfl, fun _ => rfl, fun _ => rfl, fun h => absurd rfl h, by simp [standing], by simp [standing],
        fun _ h => absurd rfl h⟩
    have h1 := set_remembers disk kw [] .none i { kw := kw } p h0 hp hi
    have := key as ⟨kw, p⟩ [i] i hord h1
    exact remembers_about kw _ _ _ this hst
  · cases h

/-- Non-vacuity: a box and then a file. -/
example : ∃ o, construct ⟨fun _ => false, fun _ => false⟩ {} (.numbers [0, 0, 1, 1]) = .ok o ∧
    (assignAll ⟨fun _ => false, fun _ => false⟩ o [.geom (.nameText "states")]).geom.about = .named "states" := ⟨_, rfl, rfl⟩

/-- False in general: the condition, the identifier's name and the aggregation are not passed on when they are assigned after
construction; the geometry assigned next still uses the old ones. -/
theorem C74_stale_counterexample :
    ∃ o, construct ⟨fun _ => false, fun _ => false⟩ { sqlWhere := some "A = 1" } .none = .ok o ∧
      (assignAll ⟨fun _ => false, fun _ => false⟩ o
        [.sqlWhere (some "A = 2"), .uid (some "ID"), .union true, .geom (.nameText "states")]).geom.read =
        .file ⟨some "states", none, { sqlWhere := some "A = 1" }⟩ := ⟨_, rfl, rfl⟩

/-- False in general: an iterator's own identifiers are dropped, so all of the file's geometries are used. -/
theorem C74_iterator_counterexample :
    ∃ o, construct ⟨fun _ => false, fun _ => false⟩ {} (.iterator { key := some "states", kw := { selectUid := some [9] } }) = .ok o ∧
      o.geom.read = .file { key := some "states" } := ⟨_, rfl, rfl⟩

/-- False in general: after a file, a box is described as that file, and custom geometries after a box as that box. -/
theorem C74_metadata_counterexample :
    (∃ o, construct ⟨fun _ => false, fun _ => false⟩ {} (.nameText "states") = .ok o ∧
      (assignAll ⟨fun _ => false, fun _ => false⟩ o [.geom (.fields [.custom 1])]).geom.about = .named "states") ∧
    (∃ o, construct ⟨fun _ => false, fun _ => false⟩ {} (.numbers [0, 0, 1, 1]) = .ok o ∧
      (assignAll ⟨fun _ => false, fun _ => false⟩ o [.geom (.fields [.custom 1])]).geom.about = .bounds [0, 0, 1, 1]) := by
  refine ⟨⟨_, rfl, rfl⟩, ?_⟩
  have h : ofNumbers [0, 0, 1, 1] = some (.ok (.box 0 0 1 1)) := by
    simp only [ofNumbers]
    rw [if_neg (by decide +kernel)]
  refine ⟨⟨{}, { kw := {}, value := .shapes [.box 0 0 1 1], bounds := some (boundsOf (.box 0 0 1 1)) }⟩, ?_, ?_⟩
  · simp only [construct, Parm.set, h, ofRecords]
    rfl
  · have : boundsOf (.box 0 0 1 1) = [0, 0, 1, 1] := by decide +kernel
    simp only [assignAll, assign, Parm.set, Parm.about, this]

/-- False in general: text with three numbers is taken for the name of a file, and a list of three numbers raises the wrong
kind of error. -/
theorem C74_numbers_counterexample :
    (∃ o, construct ⟨fun _ => false, fun _ => false⟩ {} (.numberText "1|2|3" [1, 2, 3]) = .ok o ∧
      o.geom.read = .file { key := some "1|2|3" }) ∧
    (match construct ⟨fun _ => false, fun _ => false⟩ {} (.numbers [1, 2, 3]) with
      | .error e => e = .unboundLocal
      | .ok _ => False) := ⟨⟨_, rfl, rfl⟩, rfl⟩

/-- False in general: two operations constructed from one parameter object share it, so the second's identifiers replace the
first's. -/
theorem C74_shared_counterexample :
    let p := constructPair { kw := {}, value := .file { key := some "states" } } { selectUid := some [1] } { selectUid := some [2] }
    p.first.selectUid = some [1] ∧ p.geom.read = .file { key := some "states", kw := { selectUid := some [2] } } := ⟨rfl, rfl⟩

end Ocgis.Props
