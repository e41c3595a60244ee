import Verif.Spec.TimeGroup
import Verif.Proofs.Temporal

/-! # Lemmas for grouped times -/

namespace Ocgis.TimeGroup
open Ocgis Ocgis.Temporal Ocgis.Spec

theorem leParts_iff : ∀ a b : List Int, leParts a b = true ↔ a ≤ b
  | [], b => by simp [leParts]
  | a :: as, [] => by simp [leParts]
  | a :: as, b :: bs => by
    rw [List.cons_le_cons_iff, ← leParts_iff as bs]
    simp [leParts]

theorem le_iff (a b : Date) : a.le b = true ↔ NotAfter a b := leParts_iff _ _

theorem notAfter_refl (a : Date) : NotAfter a a := List.le_refl _

theorem notAfter_trans {a b c : Date} (h1 : NotAfter a b) (h2 : NotAfter b c) : NotAfter a c := List.le_trans h1 h2

theorem notAfter_total (a b : Date) : NotAfter a b ∨ NotAfter b a := List.le_total _ _

theorem earliest_spec : ∀ (ds : List Date) (d : Date), earliest d ds ∈ d :: ds ∧ ∀ e ∈ d :: ds, NotAfter (earliest d ds) e
  | [], d => ⟨by simp [earliest], fun e he => by
      rw [List.mem_singleton] at he; rw [he]; exact notAfter_refl d⟩
  | e :: es, d => by
    simp only [earliest]
    obtain ⟨h1, h2⟩ := earliest_spec es (if d.le e then d else e)
    refine ⟨?_, fun x hx => ?_⟩
    · rcases List.mem_cons.1 h1 with h | h
      · rw [h]
        split <;> simp
      · simp [h]
    · have hm := h2 _ List.mem_cons_self
      by_cases hde : d.le e = true
      · rw [if_pos hde] at hm h2 ⊢
        rcases List.mem_cons.1 hx with h | h
        · rw [h]; exact hm
        · rcases List.mem_cons.1 h with h | h
          · rw [h]; exact notAfter_trans hm ((le_iff d e).1 hde)
          · exact h2 x (List.mem_cons_of_mem _ h)
      · have hed : NotAfter e d := (notAfter_total e d).resolve_right fun h => hde ((le_iff d e).2 h)
        rw [if_neg hde] at hm h2 ⊢
        rcases List.mem_cons.1 hx with h | h
        · rw [h]; exact notAfter_trans hm hed
        · exact h2 x h

theorem latest_spec : ∀ (ds : List Date) (d : Date), latest d ds ∈ d :: ds ∧ ∀ e ∈ d :: ds, NotAfter e (latest d ds)
  | [], d => ⟨by simp [latest], fun e he => by
      rw [List.mem_singleton] at he; rw [he]; exact notAfter_refl d⟩
  | e :: es, d => by
    simp only [latest]
    obtain ⟨h1, h2⟩ := latest_spec es (if d.le e then e else d)
    refine ⟨?_, fun x hx => ?_⟩
    · rcases List.mem_cons.1 h1 with h | h
      · rw [h]
        split <;> simp
      · simp [h]
    · have hm := h2 _ List.mem_cons_self
      by_cases hde : d.le e = true
      · rw [if_pos hde] at hm h2 ⊢
        rcases List.mem_cons.1 hx with h | h
        · rw [h]; exact notAfter_trans ((le_iff d e).1 hde) hm
        · exact h2 x h
      · have hed : NotAfter e d := (notAfter_total e d).resolve_right fun h => hde ((le_iff d e).2 h)
        rw [if_neg hde] at hm h2 ⊢
        rcases List.mem_cons.1 hx with h | h
        · rw [h]; exact hm
        · rcases List.mem_cons.1 h with h | h
          · rw [h]; exact notAfter_trans hed hm
          · exact h2 x (List.mem_cons_of_mem _ h)

/-- What an extent is. -/
theorem extentOf_spec (ds : List Date) (hne : ds ≠ []) :
    ∃ b, extentOf ds = .ok b ∧ b.1 ∈ ds ∧ b.2 ∈ ds ∧ (∀ d ∈ ds, NotAfter b.1 d) ∧ ∀ d ∈ ds, NotAfter d b.2 := by
  cases ds with
  | nil => exact absurd rfl hne
  | cons d ds => exact ⟨_, rfl, (earliest_spec ds d).1, (latest_spec ds d).1, (earliest_spec ds d).2, (latest_spec ds d).2⟩

theorem mem_pick {β : Type} : ∀ (ms : List Bool) (xs : List β) (x : β),
    x ∈ pick ms xs ↔ ∃ i : Nat, ms[i]? = some true ∧ xs[i]? = some x
  | [], xs, x => by simp [pick]
  | m :: ms, [], x => by simp [pick]
  | m :: ms, y :: xs, x => by
    have ih := mem_pick ms xs x
    unfold pick at ih ⊢
    have key : (∃ i : Nat, (m :: ms)[i]? = some true ∧ (y :: xs)[i]? = some x) ↔
        (m = true ∧ y = x) ∨ ∃ i : Nat, ms[i]? = some true ∧ xs[i]? = some x := by
      constructor
      · rintro ⟨i, h1, h2⟩
        cases i with
        | zero => exact .inl ⟨by simpa using h1, by simpa using h2⟩
        | succ i => exact .inr ⟨i, by simpa using h1, by simpa using h2⟩
      · rintro (⟨h1, h2⟩ | ⟨i, h1, h2⟩)
        · exact ⟨0, by simp [h1], by simp [h2]⟩
        · exact ⟨i + 1, by simpa using h1, by simpa using h2⟩
    rw [key, ← ih]
    cases m with
    | true =>
      simp only [List.zip_cons_cons, List.filterMap_cons, if_true, List.mem_cons, true_and]
      constructor
      · rintro (h | h)
        · exact .inl h.symm
        · exact .inr h
      · rintro (h | h)
        · exact .inl h.symm
        · exact .inr h
    | false => simp

theorem cells_get (t : TimeVar) (i : Nat) : t.cells[i]? = timeCell t i := by
  unfold TimeVar.cells timeCell
  cases t.bounds with
  | none => simp
  | some bs => rfl

/-- The bounds of a group with a member. -/
theorem groupBounds_spec (t : TimeVar) (ms : List Bool) (h : ∃ (i : Nat) (c : Date × Date), ms[i]? = some true ∧ timeCell t i = some c) :
    ∃ b, groupBounds t ms = .ok b ∧ Covers t ms b := by
  have hm : ∀ d, d ∈ (pick ms t.cells).flatMap (fun c => [c.1, c.2]) ↔
      ∃ (i : Nat) (c : Date × Date), ms[i]? = some true ∧ timeCell t i = some c ∧ (d = c.1 ∨ d = c.2) := by
    intro d
    simp only [List.mem_flatMap, mem_pick, cells_get, List.mem_cons, List.not_mem_nil, or_false]
    constructor
    · rintro ⟨c, ⟨i, h1, h2⟩, h3⟩
      exact ⟨i, c, h1, h2, h3⟩
    · rintro ⟨i, c, h1, h2, h3⟩
      exact ⟨c, ⟨i, h1, h2⟩, h3⟩
  have hne : (pick ms t.cells).flatMap (fun c => [c.1, c.2]) ≠ [] := by
    obtain ⟨i, c, h1, h2⟩ := h
    intro e
    have := (hm c.1).2 ⟨i, c, h1, h2, .inl rfl⟩
    rw [e] at this
    cases this
  obtain ⟨b, e1, e2, e3, e4, e5⟩ := extentOf_spec _ hne
  refine ⟨b, e1, ⟨fun i c h1 h2 => ?_, fun i c h1 h2 => ?_, ?_, ?_⟩⟩
  · exact ⟨e4 _ ((hm _).2 ⟨i, c, h1, h2, .inl rfl⟩), e4 _ ((hm _).2 ⟨i, c, h1, h2, .inr rfl⟩)⟩
  · exact ⟨e5 _ ((hm _).2 ⟨i, c, h1, h2, .inl rfl⟩), e5 _ ((hm _).2 ⟨i, c, h1, h2, .inr rfl⟩)⟩
  · exact (hm _).1 e2
  · exact (hm _).1 e3

/-- A group without members has no bounds. -/
theorem groupBounds_empty (t : TimeVar) (ms : List Bool) (h : ∀ i : Nat, ms[i]? ≠ some true) : groupBounds t ms = .error .valueError := by
  have : pick ms t.cells = [] := by
    apply List.eq_nil_iff_forall_not_mem.2
    intro x hx
    obtain ⟨i, h1, -⟩ := (mem_pick _ _ _).1 hx
    exact h i h1
  unfold groupBounds
  rw [this]
  rfl

/-- Times have cells. -/
theorem timeCell_some (t : TimeVar) (hs : Sound t) (i : Nat) (hi : i < t.dates.length) : ∃ c, timeCell t i = some c := by
  unfold timeCell
  cases hb : t.bounds with
  | none => exact ⟨_, by rw [List.getElem?_eq_getElem hi]; rfl⟩
  | some bs =>
    have := hs.2 bs hb
    exact ⟨bs[i]'(by omega), by simp only; rw [List.getElem?_eq_getElem (by omega)]⟩

/-! ## Names of parts -/

theorem partIndices_ok (names : List String) (h : Groupable names) : partIndices names = .ok (names.map partNames.idxOf) := by
  unfold partIndices
  have : ∀ n ∈ names, partNames.contains n = true := by
    intro n hn
    rcases h.2 n hn with rfl | rfl | rfl <;> decide
  clear h
  induction names with
  | nil => rfl
  | cons n ns ih =>
    rw [List.mapM_cons, if_pos (this n List.mem_cons_self), ih (fun m hm => this m (List.mem_cons_of_mem _ hm))]
    rfl

/-- The part of a date is that of its list of parts. -/
theorem partOf_eq (d : Date) (n : String) (h : n = "year" ∨ n = "month" ∨ n = "day") : d.parts.getD (partNames.idxOf n) 0 = partOf d n := by
  rcases h with rfl | rfl | rfl <;> rfl

theorem sameSet_iff (a b : List String) : sameSet a b = true ↔ ∀ n, n ∈ a ↔ n ∈ b := by
  unfold sameSet
  simp only [Bool.and_eq_true, List.all_eq_true, List.contains_iff_mem]
  constructor
  · rintro ⟨h1, h2⟩ n
    exact ⟨h1 n, h2 n⟩
  · intro h
    exact ⟨fun n => (h n).1, fun n => (h n).2⟩

theorem sameSet_groupable (names b : List String) (h : Groupable names) (hb : ∀ n ∈ b, n = "year" ∨ n = "month" ∨ n = "day") :
    sameSet names b = true ↔ ("year" ∈ names ↔ "year" ∈ b) ∧ ("month" ∈ names ↔ "month" ∈ b) ∧ ("day" ∈ names ↔ "day" ∈ b) := by
  rw [sameSet_iff]
  constructor
  · intro h
    exact ⟨h _, h _, h _⟩
  · rintro ⟨h1, h2, h3⟩ n
    constructor
    · intro hn
      rcases h.2 n hn with rfl | rfl | rfl
      · exact h1.1 hn
      · exact h2.1 hn
      · exact h3.1 hn
    · intro hn
      rcases hb n hn with rfl | rfl | rfl
      · exact h1.2 hn
      · exact h2.2 hn
      · exact h3.2 hn

/-- The representative of a group by years, months and days. -/
theorem partsTime_ok (names : List String) (h : Groupable names) (lower : Date) (cand : List (Option Int)) :
    ∃ r, partsTime names lower cand = .ok r ∧
      r.year = (if "year" ∈ names then part cand 0 else lower.year) ∧
      r.month = (if "month" ∈ names then part cand 1 else if "year" ∈ names then 7 else lower.month) ∧
      r.day = (if "day" ∈ names then part cand 2 else if "month" ∈ names then 16 else 1) ∧
      r.hour = (if "day" ∈ names then 12 else 0) ∧ r.minute = 0 ∧ r.second = 0 := by
  have e : ∀ b : List String, (∀ n ∈ b, n = "year" ∨ n = "month" ∨ n = "day") →
      sameSet names b = (decide ("year" ∈ names ↔ "year" ∈ b) && decide ("month" ∈ names ↔ "month" ∈ b) && decide ("day" ∈ names ↔ "day" ∈ b)) := by
    intro b hb
    rw [Bool.eq_iff_iff, sameSet_groupable names b h hb]
    simp [and_assoc]
  have hne : "year" ∈ names ∨ "month" ∈ names ∨ "day" ∈ names := by
    obtain ⟨hne, hall⟩ := h
    cases names with
    | nil => exact absurd rfl hne
    | cons n ns =>
      rcases hall n List.mem_cons_self with rfl | rfl | rfl <;> simp
  unfold partsTime
  rw [e ["month"] (by simp), e ["year"] (by simp), e ["month", "year"] (by simp), e ["day"] (by simp), e ["day", "month"] (by simp),
    e ["day", "year"] (by simp), e ["day", "year", "month"] (by simp)]
  by_cases hy : "year" ∈ names <;> by_cases hm : "month" ∈ names <;> by_cases hd : "day" ∈ names <;>
    simp only [hy, hm, hd, List.mem_cons, List.not_mem_nil] <;> simp at hne ⊢ <;> first | exact ⟨rfl, rfl, rfl, rfl, rfl, rfl⟩ | skip
  all_goals simp_all

/-! ## Lists of groups -/

theorem mapM_index {β γ : Type} (f : β → Res γ) (P : β → γ → Prop) : ∀ l : List β, (∀ x ∈ l, ∃ y, f x = .ok y ∧ P x y) →
    ∃ ys, l.mapM f = .ok ys ∧ ys.length = l.length ∧ ∀ (k : Nat) (x : β) (y : γ), l[k]? = some x → ys[k]? = some y → P x y
  | [], _ => ⟨[], rfl, rfl, fun k x y h => by simp at h⟩
  | a :: l, h => by
    obtain ⟨y, h1, h2⟩ := h a List.mem_cons_self
    obtain ⟨ys, i1, i2, i3⟩ := mapM_index f P l fun x hx => h x (List.mem_cons_of_mem _ hx)
    refine ⟨y :: ys, by rw [List.mapM_cons, h1, i1]; rfl, by simp [i2], fun k x z hx hz => ?_⟩
    cases k with
    | zero =>
      simp only [List.getElem?_cons_zero, Option.some.injEq] at hx hz
      rw [← hx, ← hz]
      exact h2
    | succ k => exact i3 k x z (by simpa using hx) (by simpa using hz)

/-- If one fails, all fail. -/
theorem mapM_fails {β γ : Type} (f : β → Res γ) (e : PyErr) : ∀ l : List β, (∀ x ∈ l, (∃ y, f x = .ok y) ∨ f x = .error e) → (∃ x ∈ l, f x = .error e) →
    l.mapM f = .error e
  | [], _, h => by
    obtain ⟨x, hx, -⟩ := h
    cases hx
  | a :: l, hall, h => by
    rw [List.mapM_cons]
    rcases hall a List.mem_cons_self with ⟨y, hy⟩ | ha
    · rw [hy]
      have : ∃ x ∈ l, f x = .error e := by
        obtain ⟨x, hx, he⟩ := h
        rcases List.mem_cons.1 hx with rfl | hx
        · rw [hy] at he; cases he
        · exact ⟨x, hx, he⟩
      rw [show (Except.ok y >>= fun b => (l.mapM f >>= fun bs => pure (b :: bs) : Res (List γ))) = (l.mapM f >>= fun bs => pure (y :: bs)) from rfl,
        mapM_fails f e l (fun x hx => hall x (List.mem_cons_of_mem _ hx)) this]
      rfl
    · rw [ha]
      rfl

theorem groupMembers_length (rows : List (List Int)) (is : List Nat) (c : List (Option Int)) : (groupMembers rows is c).length = rows.length := by
  simp [groupMembers]

/-- A member of a group by parts. -/
theorem member_lt (dates : List Date) (is : List Nat) (g : List (Option Int) × List Bool) (hg : g ∈ groups dates is) :
    g.2.length = dates.length ∧ ∃ i : Nat, g.2[i]? = some true := by
  obtain ⟨-, h2, h3⟩ := (groups_mem dates is g).1 hg
  refine ⟨by rw [h2, groupMembers_length, List.length_map], ?_⟩
  obtain ⟨i, hi⟩ := List.mem_iff_getElem?.1 h3
  exact ⟨i, hi⟩

/-- The members of a group by parts have the parts of its candidate. -/
theorem member_parts (dates : List Date) (is : List Nat) (g : List (Option Int) × List Bool) (hg : g ∈ groups dates is) (i : Nat) (d : Date)
    (hd : dates[i]? = some d) : g.2[i]? = some true ↔ ∀ k ∈ is, g.1.getD k none = some (d.parts.getD k 0) := by
  obtain ⟨-, h2, -⟩ := (groups_mem dates is g).1 hg
  rw [h2]
  exact groupMembers_get _ is g.1 i d.parts (by simp [hd])

/-! ## Order of the groups -/

/-- Both there and in order. -/
def optLt (a b : Option Int) : Prop := ∃ x y, a = some x ∧ b = some y ∧ x < y

/-- The first difference is in order. -/
def LexLt : List (Option Int) → List (Option Int) → Prop
  | a :: r, b :: s => optLt a b ∨ (a = b ∧ LexLt r s)
  | _, _ => False

theorem product_sorted : ∀ ls : List (List (Option Int)), (∀ l ∈ ls, l.Pairwise optLt) → (product ls).Pairwise LexLt
  | [], _ => by simp [product]
  | l :: ls, h => by
    have ih := product_sorted ls fun m hm => h m (List.mem_cons_of_mem _ hm)
    unfold product
    rw [List.pairwise_flatMap]
    refine ⟨fun a _ => ?_, ?_⟩
    · rw [List.pairwise_map]
      exact ih.imp fun hxy => .inr ⟨rfl, hxy⟩
    · refine (h l List.mem_cons_self).imp ?_
      intro a b hab x hx y hy
      obtain ⟨r, _, rfl⟩ := List.mem_map.1 hx
      obtain ⟨s, _, rfl⟩ := List.mem_map.1 hy
      exact .inl hab

theorem candidates_sorted (rows : List (List Int)) (is : List Nat) : (groupCandidates rows is).Pairwise LexLt := by
  apply product_sorted
  intro l hl
  obtain ⟨idx, _, rfl⟩ := List.mem_map.1 hl
  split
  · rw [List.pairwise_map]
    exact (unique_sorted _).imp fun h => ⟨_, _, rfl, rfl, h⟩
  · simp

theorem groups_sorted (dates : List Date) (is : List Nat) : (groups dates is).Pairwise fun g h => LexLt g.1 h.1 := by
  unfold groups
  refine List.Pairwise.sublist List.filter_sublist ?_
  rw [List.pairwise_map]
  exact candidates_sorted _ is

/-- The entries of a candidate of years, months and days. -/
theorem candidate_form (rows : List (List Int)) (is : List Nat) (his : ∀ k ∈ is, k < 3) (c : List (Option Int)) (hc : c ∈ groupCandidates rows is) :
    ∃ a b d, c = [a, b, d, none, none, none] ∧ (a = none ↔ 0 ∉ is) ∧ (b = none ↔ 1 ∉ is) ∧ (d = none ↔ 2 ∉ is) := by
  obtain ⟨h1, h2⟩ := (mem_candidates _ is _).1 hc
  match c, h1 with
  | [a, b, d, e, f, g], _ =>
    have hk : ∀ k, k < 6 → ∀ x, [a, b, d, e, f, g][k]? = some x → (x = none ↔ k ∉ is) := by
      intro k hk x hx
      obtain ⟨y, hy, hh⟩ := h2 k hk
      rw [hx] at hy
      cases hy
      split at hh
      · rename_i hin
        obtain ⟨r, -, hr⟩ := hh
        rw [hr]
        simp [hin]
      · rename_i hin
        simp [hh, hin]
    have he := (hk 3 (by omega) e rfl).2 fun h => absurd (his 3 h) (by omega)
    have hf := (hk 4 (by omega) f rfl).2 fun h => absurd (his 4 h) (by omega)
    have hg := (hk 5 (by omega) g rfl).2 fun h => absurd (his 5 h) (by omega)
    exact ⟨a, b, d, by rw [he, hf, hg], hk 0 (by omega) a rfl, hk 1 (by omega) b rfl, hk 2 (by omega) d rfl⟩

/-- A date is before another if its year, month or day is. -/
theorem before_of (a b : Date) (h : a.year < b.year ∨ (a.year = b.year ∧ (a.month < b.month ∨ (a.month = b.month ∧ a.day < b.day)))) :
    Before a b := by
  unfold Before NotAfter
  rw [List.cons_le_cons_iff, List.cons_le_cons_iff, List.cons_le_cons_iff]
  rintro (h1 | ⟨h1, h2 | ⟨h2, h3 | ⟨h3, -⟩⟩⟩) <;> omega

end Ocgis.TimeGroup
