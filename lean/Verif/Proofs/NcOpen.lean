import Verif.Spec.NcOpen
/-!
# Lemmas about opening a netCDF file
-/
namespace Ocgis.Proofs.NcOpen
open Ocgis.NcOpen
open Ocgis.Spec

variable {α β γ : Type}

theorem lookup_mem {l : List (String × α)} {k : String} {x : α} (h : l.lookup k = some x) : (k, x) ∈ l := by
  induction l with
  | nil => cases h
  | cons e l ih =>
    obtain ⟨a, b⟩ := e
    rw [List.lookup_cons] at h
    by_cases hk : k = a
    · subst hk
      simp at h
      subst h
      exact List.mem_cons_self
    · have : (k == a) = false := by simpa using hk
      rw [this] at h
      exact List.mem_cons_of_mem _ (ih h)

theorem lookup_none {l : List (String × α)} {k : String} (h : l.lookup k = none) (x : α) : (k, x) ∉ l := by
  induction l with
  | nil => exact fun h => by cases h
  | cons e l ih =>
    obtain ⟨a, b⟩ := e
    rw [List.lookup_cons] at h
    by_cases hk : k = a
    · subst hk
      simp at h
    · have : (k == a) = false := by simpa using hk
      rw [this] at h
      intro hm
      rcases List.mem_cons.1 hm with he | hm
      · cases he; exact hk rfl
      · exact ih h hm

theorem lookup_of_mem {l : List (String × α)} (hn : (l.map Prod.fst).Nodup) {k : String} {x : α} (h : (k, x) ∈ l) : l.lookup k = some x := by
  induction l with
  | nil => cases h
  | cons e l ih =>
    obtain ⟨a, b⟩ := e
    rw [List.lookup_cons]
    rw [List.map_cons, List.nodup_cons] at hn
    rcases List.mem_cons.1 h with he | hm
    · cases he; simp
    · have : k ≠ a := by
        rintro rfl
        exact hn.1 (List.mem_map.2 ⟨_, hm, rfl⟩)
      have : (k == a) = false := by simpa using this
      rw [this]
      exact ih hn.2 hm

theorem each_ok {f : α → Res β} : ∀ {l : List α} {r : List β}, each f l = .ok r → List.Forall₂ (fun a b => f a = .ok b) l r
  | [], r, h => by cases h; exact .nil
  | a :: l, r, h => by
    unfold each at h
    cases ha : f a with
    | error e => rw [ha] at h; cases h
    | ok b =>
      rw [ha] at h
      cases hl : each f l with
      | error e => rw [hl] at h; cases h
      | ok bs =>
        rw [hl] at h
        cases h
        exact .cons ha (each_ok hl)

theorem each_total {f : α → Res β} : ∀ {l : List α}, (∀ a ∈ l, ∃ b, f a = .ok b) → ∃ r, each f l = .ok r
  | [], _ => ⟨[], rfl⟩
  | a :: l, h => by
    obtain ⟨b, hb⟩ := h a List.mem_cons_self
    obtain ⟨r, hr⟩ := each_total (f := f) (l := l) fun x hx => h x (List.mem_cons_of_mem _ hx)
    exact ⟨b :: r, by unfold each; rw [hb, hr]⟩

theorem forall2_mem {R : α → β → Prop} {l : List α} {r : List β} (h : List.Forall₂ R l r) {a : α} (ha : a ∈ l) : ∃ b ∈ r, R a b := by
  induction h with
  | nil => cases ha
  | cons hab _ ih =>
    rcases List.mem_cons.1 ha with rfl | ha
    · exact ⟨_, List.mem_cons_self, hab⟩
    · obtain ⟨b, hb, hr⟩ := ih ha
      exact ⟨b, List.mem_cons_of_mem _ hb, hr⟩

theorem forall2_mem' {R : α → β → Prop} {l : List α} {r : List β} (h : List.Forall₂ R l r) {b : β} (hb : b ∈ r) : ∃ a ∈ l, R a b := by
  induction h with
  | nil => cases hb
  | cons hab _ ih =>
    rcases List.mem_cons.1 hb with rfl | hb
    · exact ⟨_, List.mem_cons_self, hab⟩
    · obtain ⟨a, ha, hr⟩ := ih hb
      exact ⟨a, List.mem_cons_of_mem _ ha, hr⟩

theorem forall2_comp {δ : Type} {R : α → β → Prop} {S : β → δ → Prop} {l : List α} {m : List β} {r : List δ} (h : List.Forall₂ R l m)
    (h' : List.Forall₂ S m r) : List.Forall₂ (fun a c => a ∈ l ∧ ∃ b ∈ m, R a b ∧ S b c) l r := by
  induction h generalizing r with
  | nil => cases h'; exact .nil
  | cons hab _ ih =>
    cases h' with
    | cons hbc ht =>
      refine .cons ⟨List.mem_cons_self, _, List.mem_cons_self, hab, hbc⟩ ((ih ht).imp ?_)
      rintro a c ⟨ha, b, hb, h1, h2⟩
      exact ⟨List.mem_cons_of_mem _ ha, b, List.mem_cons_of_mem _ hb, h1, h2⟩

theorem forall2_filter {R : String × α → String × β → Prop} (hR : ∀ a b, R a b → a.1 = b.1) (p : String → Bool)
    {l : List (String × α)} {m : List (String × β)} (h : List.Forall₂ R l m) :
    List.Forall₂ R (l.filter fun e => p e.1) (m.filter fun e => p e.1) := by
  induction h with
  | nil => exact .nil
  | @cons a b _ _ hab _ ih =>
    rw [List.filter_cons, List.filter_cons, ← hR _ _ hab]
    by_cases hp : p a.1 = true
    · rw [if_pos hp, if_pos hp]; exact .cons hab ih
    · rw [if_neg hp, if_neg hp]; exact ih

theorem forall2_names {R : String × α → String × β → Prop} (hR : ∀ a b, R a b → a.1 = b.1)
    {l : List (String × α)} {m : List (String × β)} (h : List.Forall₂ R l m) : l.map Prod.fst = m.map Prod.fst := by
  induction h with
  | nil => rfl
  | cons hab _ ih => rw [List.map_cons, List.map_cons, ih, hR _ _ hab]

theorem lookup_forall2 {R : String → α → β → Prop} {l : List (String × α)} {m : List (String × β)}
    (h : List.Forall₂ (fun a b => a.1 = b.1 ∧ R a.1 a.2 b.2) l m) (k : String) :
    (l.lookup k = none ∧ m.lookup k = none) ∨ ∃ a b, l.lookup k = some a ∧ m.lookup k = some b ∧ R k a b := by
  induction h with
  | nil => exact .inl ⟨rfl, rfl⟩
  | @cons a b _ _ hab _ ih =>
    obtain ⟨a1, a2⟩ := a
    obtain ⟨b1, b2⟩ := b
    obtain ⟨h1, h2⟩ := hab
    cases h1
    rw [List.lookup_cons, List.lookup_cons]
    by_cases hk : k = a1
    · subst hk
      simp only [beq_self_eq_true]
      exact .inr ⟨_, _, rfl, rfl, h2⟩
    · have : (k == a1) = false := by simpa using hk
      rw [this]
      exact ih

/-- The name a group at a path is handled under. -/
def nameAt (n : Option String) : List String → Option String
  | [] => n
  | k :: p => nameAt (some k) p

theorem nameAt_append (n : Option String) (p : List String) (k : String) : nameAt n (p ++ [k]) = some k := by
  induction p generalizing n with
  | nil => rfl
  | cons a p ih => exact ih _

theorem walkKids_ok {f : Option String → β → Res γ} : ∀ {ks : List (String × Tree β)} {us : List (String × Tree γ)}, walkKids f ks = .ok us →
    List.Forall₂ (fun a b => a.1 = b.1 ∧ Tree.walk f (some a.1) a.2 = .ok b.2) ks us
  | [], us, h => by unfold walkKids at h; cases h; exact .nil
  | (k, t) :: ks, us, h => by
    unfold walkKids at h
    cases ht : Tree.walk f (some k) t with
    | error e => rw [ht] at h; cases h
    | ok u =>
      rw [ht] at h
      cases hk : walkKids f ks with
      | error e => rw [hk] at h; cases h
      | ok us' =>
        rw [hk] at h
        cases h
        exact .cons ⟨rfl, ht⟩ (walkKids_ok hk)

theorem walk_ok {f : Option String → β → Res γ} {n : Option String} {t : Tree β} {u : Tree γ} (h : t.walk f n = .ok u) :
    f n t.node = .ok u.node ∧ List.Forall₂ (fun a b => a.1 = b.1 ∧ Tree.walk f (some a.1) a.2 = .ok b.2) t.kids u.kids := by
  obtain ⟨b, ks⟩ := t
  unfold Tree.walk at h
  cases hf : f n b with
  | error e => rw [hf] at h; cases h
  | ok c =>
    rw [hf] at h
    cases hk : walkKids f ks with
    | error e => rw [hk] at h; cases h
    | ok us =>
      rw [hk] at h
      cases h
      exact ⟨hf, walkKids_ok hk⟩

theorem walk_same {f : Option String → β → Res γ} {n : Option String} {t : Tree β} {u : Tree γ} (h : t.walk f n = .ok u) :
    SameGroups (fun p a b => f (nameAt n p) a = .ok b) t u := by
  intro p
  induction p generalizing n t u with
  | nil =>
    obtain ⟨h1, h2⟩ := walk_ok h
    exact .inr ⟨t, u, rfl, rfl, forall2_names (fun a b hab => hab.1) h2, h1⟩
  | cons k p ih =>
    obtain ⟨h1, h2⟩ := walk_ok h
    unfold Tree.get
    rcases lookup_forall2 (R := fun k a b => Tree.walk f (some k) a = .ok b) h2 k with ⟨e1, e2⟩ | ⟨a, b, e1, e2, hw⟩
    · rw [e1, e2]; exact .inl ⟨rfl, rfl⟩
    · rw [e1, e2]
      exact ih hw

mutual
theorem walk_total {f : Option String → β → Res γ} : ∀ (n : Option String) (t : Tree β), (∀ p c, t.get p = some c →
    (c.kids.map Prod.fst).Nodup ∧ ∃ y, f (nameAt n p) c.node = .ok y) → ∃ u, t.walk f n = .ok u
  | n, .mk b ks, h => by
    obtain ⟨hnd, y, hy⟩ := h [] _ rfl
    have hkids : ∀ e ∈ ks, ∀ p c, e.2.get p = some c → (c.kids.map Prod.fst).Nodup ∧ ∃ y, f (nameAt (some e.1) p) c.node = .ok y := by
      intro e he p c hc
      refine h (e.1 :: p) c ?_
      unfold Tree.get
      rw [show (Tree.mk b ks).kids.lookup e.1 = some e.2 from lookup_of_mem hnd he]
      exact hc
    obtain ⟨us, hus⟩ := walkKids_total ks hkids
    refine ⟨.mk y us, ?_⟩
    unfold Tree.walk
    rw [show f n b = .ok y from hy, hus]
theorem walkKids_total {f : Option String → β → Res γ} : ∀ (ks : List (String × Tree β)), (∀ e ∈ ks, ∀ p c, e.2.get p = some c →
    (c.kids.map Prod.fst).Nodup ∧ ∃ y, f (nameAt (some e.1) p) c.node = .ok y) → ∃ us, walkKids f ks = .ok us
  | [], _ => ⟨[], by unfold walkKids; rfl⟩
  | (k, t) :: ks, h => by
    obtain ⟨u, hu⟩ := walk_total (some k) t (h (k, t) List.mem_cons_self)
    obtain ⟨us, hus⟩ := walkKids_total ks fun e he => h e (List.mem_cons_of_mem _ he)
    exact ⟨(k, u) :: us, by unfold walkKids; rw [hu, hus]⟩
end

theorem hasScale_iff (v : NVar) : (v.attrs.lookup "scale_factor").isSome = true ↔ HasScale v := by
  cases h : v.attrs.lookup "scale_factor" with
  | none => exact ⟨fun h' => (by cases h'), fun ⟨x, hx⟩ => absurd hx (lookup_none h x)⟩
  | some x => exact ⟨fun _ => ⟨x, lookup_mem h⟩, fun _ => rfl⟩

theorem fillOf_is (v : NVar) : FillIs v (fillOf v) := by
  unfold fillOf FillIs MissingMark
  cases h1 : v.attrs.lookup "_FillValue" with
  | some x => exact .inl ⟨x, .inl rfl, rfl⟩
  | none =>
    cases h2 : v.attrs.lookup "fill_value" with
    | some x => exact .inl ⟨x, .inr ⟨rfl, .inl rfl⟩, rfl⟩
    | none =>
      cases h3 : v.attrs.lookup "missing_value" with
      | some x => exact .inl ⟨x, .inr ⟨rfl, .inr ⟨rfl, rfl⟩⟩, rfl⟩
      | none => exact .inr ⟨fun x => by simp, rfl⟩

theorem parseVar_total (e : String × NVar) (h : HasScale e.2 → e.2.readable = true) : ∃ y, parseVar e = .ok y := by
  unfold parseVar
  by_cases hs : (e.2.attrs.lookup "scale_factor").isSome = true
  · simp only [if_pos hs, if_pos (h ((hasScale_iff _).1 hs))]; exact ⟨_, rfl⟩
  · simp only [if_neg hs]; exact ⟨_, rfl⟩

theorem parseVar_ok {e : String × NVar} {y : String × VMeta} (h : parseVar e = .ok y) :
    e.1 = y.1 ∧ VarMeta e.2 y.2 ∧ (HasScale e.2 → e.2.readable = true) := by
  unfold parseVar at h
  by_cases hs : (e.2.attrs.lookup "scale_factor").isSome = true
  · have hs' := (hasScale_iff _).1 hs
    by_cases hr : e.2.readable = true
    · simp only [if_pos hs, if_pos hr] at h
      cases h
      exact ⟨rfl, ⟨rfl, rfl, rfl, fillOf_is _, fun _ => ⟨rfl, rfl⟩, fun h => absurd hs' h⟩, fun _ => hr⟩
    · simp only [if_pos hs, if_neg hr] at h
      cases h
  · have hs' : ¬ HasScale e.2 := fun h => hs ((hasScale_iff _).2 h)
    simp only [if_neg hs] at h
    cases h
    exact ⟨rfl, ⟨rfl, rfl, rfl, fillOf_is _, fun h => absurd h hs', fun _ => ⟨rfl, rfl⟩⟩, fun h => absurd h hs'⟩

theorem parseNode_total (b : NNode) (h : ∀ e ∈ b.vars, HasScale e.2 → e.2.readable = true) : ∃ y, parseNode b = .ok y := by
  obtain ⟨r, hr⟩ := each_total (f := parseVar) fun e he => parseVar_total e (h e he)
  exact ⟨⟨b.attrs, b.dims, r⟩, by unfold parseNode; rw [hr]⟩

theorem parseNode_ok {b : NNode} {m : MNode} (h : parseNode b = .ok m) :
    GroupMeta b m ∧ ∀ e ∈ b.vars, HasScale e.2 → e.2.readable = true := by
  unfold parseNode at h
  cases hr : each parseVar b.vars with
  | error e => rw [hr] at h; cases h
  | ok r =>
    rw [hr] at h
    cases h
    refine ⟨⟨rfl, rfl, (each_ok hr).imp fun a b hab => ⟨(parseVar_ok hab).1, (parseVar_ok hab).2.1⟩⟩, fun e he => ?_⟩
    obtain ⟨y, _, hy⟩ := forall2_mem (each_ok hr) he
    exact (parseVar_ok hy).2.2

theorem parse_ok {t : Tree NNode} {m : Tree MNode} (h : parse t = .ok m) :
    SameGroups (fun _ => GroupMeta) t m ∧ ScaledReadable t := by
  have hs := walk_same h
  constructor
  · intro p
    rcases hs p with hn | ⟨a, b, h1, h2, h3, h4⟩
    · exact .inl hn
    · exact .inr ⟨a, b, h1, h2, h3, (parseNode_ok h4).1⟩
  · intro p c hc
    rcases hs p with ⟨hn, _⟩ | ⟨a, b, h1, h2, h3, h4⟩
    · rw [hc] at hn; cases hn
    · rw [hc] at h1; cases h1
      exact (parseNode_ok h4).2

theorem parse_total {t : Tree NNode} (hp : ProperFile t) (hr : ScaledReadable t) : ∃ m, parse t = .ok m :=
  walk_total none t fun p c hc => ⟨(hp p c hc).1, parseNode_total _ (hr p c hc)⟩

theorem get_one (t : Tree β) (k : String) : t.get [k] = t.kids.lookup k := by
  unfold Tree.get
  cases t.kids.lookup k with
  | none => rfl
  | some c => rfl

theorem groupOf_get {root b : Tree MNode} {k : String} (h : root.get [k] = some b) : groupOf root (some k) = .ok b.node := by
  rw [get_one] at h
  simp only [groupOf, h]

theorem groupOf_ok {root : Tree MNode} {g : MNode} {k : String} (h : groupOf root (some k) = .ok g) :
    ∃ u, root.get [k] = some u ∧ u.node = g := by
  rw [get_one]
  simp only [groupOf] at h
  cases hl : root.kids.lookup k with
  | none => rw [hl] at h; cases h
  | some u => rw [hl] at h; cases h; exact ⟨u, rfl, rfl⟩

theorem findDim_ok {g : MNode} {d : String} {y : FDim} (h : findDim g d = .ok y) : ∃ x, (d, x) ∈ g.dims ∧ y = makeDim d x := by
  unfold findDim at h
  cases hl : g.dims.lookup d with
  | none => rw [hl] at h; cases h
  | some x =>
    rw [hl] at h
    cases h
    exact ⟨x, lookup_mem hl, rfl⟩

theorem findDim_total {g : MNode} {d : String} {x : NDim} (h : (d, x) ∈ g.dims) : ∃ y, findDim g d = .ok y := by
  unfold findDim
  cases hl : g.dims.lookup d with
  | none => exact absurd h (lookup_none hl x)
  | some x => exact ⟨_, rfl⟩

theorem makeDim_is {b : NNode} {d : String} {x : NDim} (h : (d, x) ∈ b.dims) : DimIs b d (makeDim d x) := by
  unfold makeDim DimIs
  cases hu : x.unlimited with
  | true => exact ⟨rfl, x, h, rfl, fun _ => rfl, fun h => (by rw [hu] at h; cases h)⟩
  | false => exact ⟨rfl, x, h, rfl, fun h => (by rw [hu] at h; cases h), fun _ => rfl⟩

theorem initVar_ok {root : Tree MNode} {src : Option String} {e : String × VMeta} {y : String × FVar} (h : initVar root src e = .ok y) :
    e.1 = y.1 ∧ ∃ g m, groupOf root src = .ok g ∧ g.vars.lookup e.1 = some m ∧ List.Forall₂ (fun d y => findDim g d = .ok y) m.dims y.2.dims ∧
      m.dims.Nodup ∧ y.2.attrs = m.attrs.filter (fun a => !["add_offset", "scale_factor"].contains a.1) ∧
      y.2.dtype = m.packed.getD e.2.dtype ∧ y.2.fill = m.packedFill.getD m.fill := by
  unfold initVar at h
  cases hg : groupOf root src with
  | error x => rw [hg] at h; cases h
  | ok g =>
    rw [hg] at h
    simp only at h
    cases hl : g.vars.lookup e.1 with
    | none => rw [hl] at h; cases h
    | some m =>
      rw [hl] at h
      simp only at h
      cases he : each (findDim g) m.dims with
      | error x => rw [he] at h; cases h
      | ok ds =>
        rw [he] at h
        simp only at h
        by_cases hn : m.dims.Nodup
        · rw [if_pos hn] at h
          cases h
          exact ⟨rfl, g, m, rfl, hl, each_ok he, hn, rfl, rfl, rfl⟩
        · rw [if_neg hn] at h
          cases h

theorem initVar_total {root : Tree MNode} {src : Option String} {e : String × VMeta} {g : MNode} {m : VMeta} (hg : groupOf root src = .ok g)
    (hl : g.vars.lookup e.1 = some m) (hn : m.dims.Nodup) (hd : ∀ d ∈ m.dims, ∃ x, (d, x) ∈ g.dims) : ∃ y, initVar root src e = .ok y := by
  obtain ⟨ds, hds⟩ := each_total (f := findDim g) fun d h => findDim_total (hd d h).choose_spec
  unfold initVar
  rw [hg]
  simp only
  rw [hl]
  simp only
  rw [hds]
  simp only
  rw [if_pos hn]
  exact ⟨_, rfl⟩

theorem createNode_ok {root : Tree MNode} {src : Option String} {b : MNode} {f : FNode} (h : createNode root src b = .ok f) :
    f.attrs = b.attrs ∧ List.Forall₂ (fun x y => initVar root src x = .ok y) b.vars f.vars := by
  unfold createNode at h
  cases he : each (initVar root src) b.vars with
  | error e => rw [he] at h; cases h
  | ok r =>
    rw [he] at h
    cases h
    exact ⟨rfl, each_ok he⟩

/-- The variables of a group whose metadata are found become variables of the field. -/
theorem createNode_is {root : Tree MNode} {src : Option String} {b : NNode} {m : MNode} (want : String → Bool) (hm : GroupMeta b m)
    (hg : groupOf root src = .ok { m with vars := m.vars.filter fun e => want e.1 }) (hv : (b.vars.map Prod.fst).Nodup)
    (hpl : ∀ e ∈ b.vars, e.2.dims.Nodup ∧ ∀ d ∈ e.2.dims, ∃ x, (d, x) ∈ b.dims) :
    ∃ f, createNode root src { m with vars := m.vars.filter fun e => want e.1 } = .ok f ∧ GroupIs want b f := by
  obtain ⟨h1, h2, h3⟩ := hm
  have h4 := forall2_filter (fun a b h => h.1) want h3
  have hnd : ((m.vars.filter fun e => want e.1).map Prod.fst).Nodup := by
    rw [← forall2_names (fun a b h => h.1) h4]
    exact hv.sublist (List.Sublist.map _ List.filter_sublist)
  have hlook : ∀ e ∈ m.vars.filter fun e => want e.1, (m.vars.filter fun e => want e.1).lookup e.1 = some e.2 := fun e he =>
    lookup_of_mem hnd he
  obtain ⟨r, hr⟩ := each_total (f := initVar root src) (l := m.vars.filter fun e => want e.1) fun e he => by
    obtain ⟨x, hx, hxe, hx1, _⟩ := forall2_mem' h4 he
    obtain ⟨hp1, hp2⟩ := hpl x (List.mem_of_mem_filter hx)
    refine initVar_total hg (hlook e he) (by rw [hx1]; exact hp1) fun d hd => ?_
    rw [hx1] at hd
    obtain ⟨y, hy⟩ := hp2 d hd
    exact ⟨y, by rw [show ({ m with vars := m.vars.filter fun e => want e.1 } : MNode).dims = m.dims from rfl, h2]; exact hy⟩
  refine ⟨⟨m.attrs, r⟩, by unfold createNode; rw [hr], h1, ?_⟩
  refine (forall2_comp h4 (each_ok hr)).imp ?_
  rintro x z ⟨_, y, hy, ⟨hxy, v1, v2, v3, v4, v5, v6⟩, hi⟩
  obtain ⟨hyz, g, m', hg', hl, hd, _, ha, ht, hf⟩ := initVar_ok hi
  rw [hg] at hg'
  cases hg'
  have hmy : m' = y.2 := by
    have := hlook y hy
    rw [show ({ m with vars := m.vars.filter fun e => want e.1 } : MNode).vars = m.vars.filter fun e => want e.1 from rfl] at hl
    rw [this] at hl
    cases hl
    rfl
  subst hmy
  refine ⟨hxy.trans hyz, ?_, ?_, ?_, ?_⟩
  · rw [← v1]
    refine hd.imp fun d y hdy => ?_
    obtain ⟨x, hx, rfl⟩ := findDim_ok hdy
    exact makeDim_is (by rw [← h2]; exact hx)
  · rw [ha, v2]
    congr 1
    funext a
    simp
  · intro hs
    obtain ⟨p1, p2⟩ := v5 hs
    rw [ht, hf, p1, p2]
    exact ⟨rfl, rfl⟩
  · intro hs
    obtain ⟨p1, p2⟩ := v6 hs
    rw [ht, hf, p1, p2]
    exact ⟨v3, v4⟩

theorem filterRoot_get (pred : String → Bool) (m : Tree MNode) {p : List String} (hp : p ≠ []) : (filterRoot pred m).get p = m.get p := by
  cases p with
  | nil => exact absurd rfl hp
  | cons k p => rfl

/-- A field is opened only if every variable of every group is created. -/
theorem open_vars {pred : String → Bool} {src : Option String} {t : Tree NNode} {f : Tree FNode} (h : openFile pred src t = .ok f) :
    ∃ m, parse t = .ok m ∧ createRaw src (filterRoot pred m) = .ok f ∧ ∀ p c, t.get p = some c → ∀ e ∈ c.node.vars, (p = [] → pred e.1 = true) →
      ∃ b, (filterRoot pred m).get p = some b ∧ ∃ v y, VarMeta e.2 v ∧ (e.1, v) ∈ b.node.vars ∧
        initVar (filterRoot pred m) (nameAt src p) (e.1, v) = .ok y := by
  unfold openFile at h
  cases hm : parse t with
  | error e => rw [hm] at h; cases h
  | ok m =>
    rw [hm] at h
    refine ⟨m, rfl, h, fun p c hc e he hpe => ?_⟩
    rcases (parse_ok hm).1 p with ⟨hn, _⟩ | ⟨a, b, h1, h2, h3, h4⟩
    · rw [hc] at hn; cases hn
    · rw [hc] at h1; cases h1
      obtain ⟨y, hy, hy1, hy2⟩ := forall2_mem h4.2.2 he
      have hb : ∃ b', (filterRoot pred m).get p = some b' ∧ (e.1, y.2) ∈ b'.node.vars := by
        have hy' : (e.1, y.2) ∈ b.node.vars := by rw [hy1]; exact hy
        by_cases hp : p = []
        · subst hp
          cases h2
          exact ⟨_, rfl, List.mem_filter.2 ⟨hy', hpe rfl⟩⟩
        · exact ⟨b, by rw [filterRoot_get pred m hp]; exact h2, hy'⟩
      obtain ⟨b', hb1, hb2⟩ := hb
      refine ⟨b', hb1, y.2, ?_⟩
      rcases walk_same h p with ⟨hn, _⟩ | ⟨a', f', g1, g2, g3, g4⟩
      · rw [hb1] at hn; cases hn
      · rw [hb1] at g1
        cases g1
        obtain ⟨z, hz, hi⟩ := forall2_mem (createNode_ok g4).2 hb2
        exact ⟨z, hy2, hb2, hi⟩

/-- What holds of every variable at the root or in a group of it, if the file is opened. -/
theorem open_own {t : Tree NNode} {pred : String → Bool} {f : Tree FNode} (h : openFile pred none t = .ok f) (hp : ProperFile t)
    {p : List String} {c : Tree NNode} (hpl : p.length ≤ 1) (hc : t.get p = some c) {e : String × NVar} (he : e ∈ c.node.vars)
    (hpe : p = [] → pred e.1 = true) : e.2.dims.Nodup ∧ ∀ d ∈ e.2.dims, ∃ x, (d, x) ∈ c.node.dims := by
  obtain ⟨m, hm, _, hall⟩ := open_vars h
  obtain ⟨b, hb, v, y, hv, hmem, hi⟩ := hall p c hc e he hpe
  obtain ⟨_, g, m', hg, hl, hd, hnd, _⟩ := initVar_ok hi
  have hgb : g = b.node := by
    match p, hpl, hb, hg with
    | [], _, hb, hg => cases hb; cases hg; rfl
    | [k], _, hb, hg =>
      obtain ⟨u, hu, rfl⟩ := groupOf_ok hg
      rw [hb] at hu
      cases hu
      rfl
  subst hgb
  rcases (parse_ok hm).1 p with ⟨hn, _⟩ | ⟨a, b', h1, h2, _, h4⟩
  · rw [hc] at hn; cases hn
  · rw [hc] at h1
    cases h1
    have hsub : b.node.dims = b'.node.dims ∧ ∀ z ∈ b.node.vars, z ∈ b'.node.vars := by
      by_cases h0 : p = []
      · subst h0
        cases hb
        cases h2
        exact ⟨rfl, fun z hz => List.mem_of_mem_filter hz⟩
      · rw [filterRoot_get pred m h0, h2] at hb
        cases hb
        exact ⟨rfl, fun z hz => hz⟩
    have hnames : (b'.node.vars.map Prod.fst).Nodup := by
      rw [← forall2_names (fun a b h => h.1) h4.2.2]
      exact (hp p c hc).2.1
    have hmv : m' = v := by
      have q1 := lookup_of_mem hnames (hsub.2 _ (lookup_mem hl))
      have q2 := lookup_of_mem hnames (hsub.2 _ hmem)
      exact Option.some.inj (q1.symm.trans q2)
    subst hmv
    rw [hv.1] at hnd hd
    refine ⟨hnd, fun d hdm => ?_⟩
    obtain ⟨z, _, hz⟩ := forall2_mem hd hdm
    obtain ⟨x, hx, _⟩ := findDim_ok hz
    exact ⟨x, by rw [← h4.2.1, ← hsub.1]; exact hx⟩

end Ocgis.Proofs.NcOpen
