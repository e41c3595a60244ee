import Verif.Spec.AggNc
/-! # Helper lemmas: aggregated netCDF files -/
namespace Ocgis.Proofs.AggNc
open Ocgis.AggNc Ocgis.Spec

variable {α : Type}

theorem eq_of_nodup_map {β γ : Type} (g : β → γ) {l : List β} (h : (l.map g).Nodup) {a b : β} (ha : a ∈ l) (hb : b ∈ l)
    (e : g a = g b) : a = b := by
  induction l with
  | nil => exact nomatch ha
  | cons x l ih =>
    rw [List.map_cons, List.nodup_cons] at h
    rcases List.mem_cons.1 ha with rfl | ha'
    · rcases List.mem_cons.1 hb with rfl | hb'
      · rfl
      · exact (h.1 (List.mem_map.2 ⟨b, hb', e.symm⟩)).elim
    · rcases List.mem_cons.1 hb with rfl | hb'
      · exact (h.1 (List.mem_map.2 ⟨a, ha', e⟩)).elim
      · exact ih h.2 ha' hb'

/-! ## Formatting -/

theorem removeVar_ok (l l' : List (Vr α)) (n : String) (h : removeVar l n = .ok l') :
    ∃ v ∈ l, v.name = n ∧ l' = l.filter fun w => w.name != n && decide (v.bounds ≠ some w.name) := by
  unfold removeVar at h
  cases hf : l.find? (fun v => v.name == n) with
  | none => rw [hf] at h; exact nomatch h
  | some v =>
    rw [hf] at h
    exact ⟨v, List.mem_of_find?_eq_some hf, by simpa using List.find?_some hf, (Except.ok.inj h).symm⟩

theorem addVar_ok (l l' : List (Vr α)) (v : Vr α) (h : addVar l v = .ok l') :
    l' = l ++ [v] ∧ v.name ∉ l.map Vr.name := by
  unfold addVar at h
  split at h
  · exact nomatch h
  · rename_i hn
    refine ⟨(Except.ok.inj h).symm, fun hm => hn ?_⟩
    obtain ⟨w, hw, e⟩ := List.mem_map.1 hm
    exact List.any_eq_true.2 ⟨w, hw, by simpa using e⟩

/-- The variable of a property. -/
def propVar (p : Prop' α) : Vr α := { name := p.key, place := .geom, cell := p.cell, width := p.width }

theorem addProps_ok (ps : List (Prop' α)) (l l' : List (Vr α)) (h : addProps l ps = .ok l') (hn : (l.map Vr.name).Nodup) :
    l' = l ++ ps.map propVar ∧ (l'.map Vr.name).Nodup := by
  induction ps generalizing l with
  | nil => obtain rfl := Except.ok.inj h; simpa using hn
  | cons p ps ih =>
    unfold addProps at h
    cases ha : addVar l { name := p.key, place := .geom, cell := p.cell, width := p.width } with
    | error e => rw [ha] at h; exact nomatch h
    | ok m =>
      rw [ha] at h
      obtain ⟨rfl, hm⟩ := addVar_ok _ _ _ ha
      obtain ⟨h1, h2⟩ := ih _ h (by
        rw [List.map_append, List.nodup_append]
        refine ⟨hn, by simp, ?_⟩
        intro a ha b hb
        simp only [List.map_cons, List.map_nil, List.mem_singleton] at hb
        subst hb
        rintro rfl
        exact hm ha)
      exact ⟨by rw [h1]; simp [propVar], h2⟩

/-- The identifier gets its role. -/
def role (v : Vr α) : Vr α := if v.name == gidName then { v with attrs := setAttr v.attrs "cf_role" "timeseries_id" } else v

theorem role_name (v : Vr α) : (role v).name = v.name := by unfold role; split <;> rfl
theorem role_place (v : Vr α) : (role v).place = v.place := by unfold role; split <;> rfl
theorem role_cell (v : Vr α) : (role v).cell = v.cell := by unfold role; split <;> rfl
theorem role_width (v : Vr α) : (role v).width = v.width := by unfold role; split <;> rfl

theorem role_names (l : List (Vr α)) : (l.map role).map Vr.name = l.map Vr.name := by
  rw [List.map_map]
  exact List.map_congr_left fun v _ => role_name v

/-- The variable that replaces a coordinate. -/
def coord (n : String) (c : α) (a : List (String × String)) (t : String) : Vr α :=
  { name := n, place := .geom, cell := .num c, attrs := setAttr a "long_name" t }

theorem formatField_ok (cfg : Cfg) (i : Nat) (c : Col α) (f f' : Fld α) (h : formatField cfg i c f = .ok f') :
    ∃ xn yn vx vy l1 l2, f.x = some xn ∧ f.y = some yn ∧
      l1 = f.vars.filter (fun w => w.name != xn && decide (vx.bounds ≠ some w.name)) ∧ vx ∈ f.vars ∧ vx.name = xn ∧
      l2 = l1.filter (fun w => w.name != yn && decide (vy.bounds ≠ some w.name)) ∧ vy ∈ l1 ∧ vy.name = yn ∧
      xn ≠ yn ∧
      ∃ xa ya l, xa = attrsOf f.vars xn ∧ ya = attrsOf f.vars yn ∧ l = (l2 ++ [coord xn c.cx xa "Centroid longitude"] ++ [coord yn c.cy ya "Centroid latitude"]).filter
          (fun v => v.name != maskName) ∧
        f'.vars = (l ++ c.props.map propVar).map role ∧
        ((f.vars.map Vr.name).Nodup → (f'.vars.map Vr.name).Nodup) ∧
        (∃ v ∈ l ++ c.props.map propVar, v.name = gidName) ∧
        f'.gsize = cfg.ngeom ∧ f'.gpos = i ∧ f'.gname = cfg.geomDim.getD f.gname ∧ f'.attrs = f.attrs := by
  unfold formatField at h
  cases hx : f.x with
  | none => rw [hx] at h; simp at h
  | some xn =>
    cases hy : f.y with
    | none => rw [hx, hy] at h; simp at h
    | some yn =>
      rw [hx, hy] at h
      simp only at h
      cases h1 : removeVar f.vars xn with
      | error e => rw [h1] at h; exact nomatch h
      | ok l1 =>
        rw [h1] at h
        simp only at h
        cases h2 : removeVar l1 yn with
        | error e => rw [h2] at h; exact nomatch h
        | ok l2 =>
          rw [h2] at h
          simp only at h
          cases h3 : addVar l2 (coord xn c.cx (attrsOf f.vars xn) "Centroid longitude") with
          | error e => simp only [coord] at h3; rw [h3] at h; exact nomatch h
          | ok l3 =>
            have h3' := h3
            simp only [coord] at h3'
            rw [h3'] at h
            simp only at h
            cases h4 : addVar l3 (coord yn c.cy (attrsOf f.vars yn) "Centroid latitude") with
            | error e => simp only [coord] at h4; rw [h4] at h; exact nomatch h
            | ok l4 =>
              have h4' := h4
              simp only [coord] at h4'
              rw [h4'] at h
              simp only at h
              have hmask : (if l4.any (fun v => v.name == maskName) then l4.filter (fun v => v.name != maskName) else l4) =
                  l4.filter (fun v => v.name != maskName) := by
                split
                · rfl
                · rename_i hn
                  refine (List.filter_eq_self.2 ?_).symm
                  intro v hv
                  simp only [bne_iff_ne, ne_eq]
                  intro e
                  exact hn (List.any_eq_true.2 ⟨v, hv, by simpa using e⟩)
              rw [hmask] at h
              obtain ⟨vx, hvx, hvxn, e1⟩ := removeVar_ok _ _ _ h1
              obtain ⟨vy, hvy, hvyn, e2⟩ := removeVar_ok _ _ _ h2
              obtain ⟨e3, n3⟩ := addVar_ok _ _ _ h3
              obtain ⟨e4, n4⟩ := addVar_ok _ _ _ h4
              have hne : xn ≠ yn := by
                rintro rfl
                rw [e1, List.mem_filter] at hvy
                simp [hvyn] at hvy
              cases h5 : addProps (l4.filter (fun v => v.name != maskName)) c.props with
              | error e => rw [h5] at h; exact nomatch h
              | ok l5 =>
                rw [h5] at h
                simp only at h
                split at h
                · rename_i hg
                  have := Except.ok.inj h
                  subst this
                  have hnod : (f.vars.map Vr.name).Nodup → ((l4.filter (fun v => v.name != maskName)).map Vr.name).Nodup := by
                    intro hn
                    have k1 : (l1.map Vr.name).Nodup := by
                      rw [e1]; exact hn.sublist (List.filter_sublist.map _)
                    have k2 : (l2.map Vr.name).Nodup := by
                      rw [e2]; exact k1.sublist (List.filter_sublist.map _)
                    have k3 : (l3.map Vr.name).Nodup := by
                      rw [e3, List.map_append, List.nodup_append]
                      refine ⟨k2, by simp, ?_⟩
                      intro a ha b hb
                      simp only [List.map_cons, List.map_nil, List.mem_singleton] at hb
                      subst hb; rintro rfl; exact n3 ha
                    have k4 : (l4.map Vr.name).Nodup := by
                      rw [e4, List.map_append, List.nodup_append]
                      refine ⟨k3, by simp, ?_⟩
                      intro a ha b hb
                      simp only [List.map_cons, List.map_nil, List.mem_singleton] at hb
                      subst hb; rintro rfl; exact n4 ha
                    exact k4.sublist (List.filter_sublist.map _)
                  have hl5 : l5 = l4.filter (fun v => v.name != maskName) ++ c.props.map propVar := by
                    clear hnod hg h
                    generalize l4.filter (fun v => v.name != maskName) = l at h5
                    generalize c.props = ps at h5
                    induction ps generalizing l with
                    | nil => simp only [addProps] at h5; simpa using (Except.ok.inj h5).symm
                    | cons p ps ih =>
                      unfold addProps at h5
                      cases ha : addVar l { name := p.key, place := .geom, cell := p.cell, width := p.width } with
                      | error e => rw [ha] at h5; exact nomatch h5
                      | ok m =>
                        rw [ha] at h5
                        obtain ⟨rfl, hm⟩ := addVar_ok _ _ _ ha
                        rw [ih _ h5]; simp [propVar]
                  refine ⟨xn, yn, vx, vy, l1, l2, rfl, rfl, e1, hvx, hvxn, e2, hvy, hvyn, hne, attrsOf f.vars xn, attrsOf f.vars yn,
                    l4.filter (fun v => v.name != maskName), rfl, rfl, by rw [e4, e3], ?_, ?_, ?_, rfl, rfl, rfl, rfl⟩
                  · rw [hl5]; rfl
                  · intro hn
                    show ((l5.map role).map Vr.name).Nodup
                    rw [role_names]
                    exact (addProps_ok _ _ _ h5 (hnod hn)).2
                  · rw [← hl5]
                    obtain ⟨v, hv, e⟩ := List.any_eq_true.1 hg
                    exact ⟨v, hv, by simpa using e⟩
                · exact nomatch h

/-- What the field has before the properties are added. -/
theorem formatted_base (cfg : Cfg) (i : Nat) (c : Col α) (f f' : Fld α) (h : formatField cfg i c f = .ok f')
    (hx : f.x ≠ some maskName) (hy : f.y ≠ some maskName) :
    ∃ l, f'.vars = (l ++ c.props.map propVar).map role ∧
      (∃ xn, f.x = some xn ∧ ∃ v ∈ l, v.name = xn ∧ v.place = .geom ∧ v.cell = .num c.cx) ∧
      (∃ yn, f.y = some yn ∧ ∃ v ∈ l, v.name = yn ∧ v.place = .geom ∧ v.cell = .num c.cy) ∧
      (∀ v, IsKept f v → v ∈ l) := by
  obtain ⟨xn, yn, vx, vy, l1, l2, ex, ey, e1, hvx, hvxn, e2, hvy, hvyn, hne, xa, ya, l, exa, eya, el, ev, -⟩ := formatField_ok cfg i c f f' h
  have hxm : xn ≠ maskName := fun e => hx (by rw [ex, e])
  have hym : yn ≠ maskName := fun e => hy (by rw [ey, e])
  refine ⟨l, ev, ⟨xn, ex, coord xn c.cx xa "Centroid longitude", ?_, rfl, rfl, rfl⟩, ⟨yn, ey, coord yn c.cy ya "Centroid latitude", ?_, rfl, rfl, rfl⟩, ?_⟩
  · rw [el, List.mem_filter]
    exact ⟨by simp, by simpa [coord] using hxm⟩
  · rw [el, List.mem_filter]
    exact ⟨by simp, by simpa [coord] using hym⟩
  · intro v ⟨hv, hm, kx, ky, kb⟩
    rw [el, List.mem_filter]
    refine ⟨List.mem_append_left _ (List.mem_append_left _ ?_), by simpa using hm⟩
    have hvy' : vy ∈ f.vars := by rw [e1] at hvy; exact (List.mem_filter.1 hvy).1
    rw [e2, List.mem_filter, e1, List.mem_filter]
    refine ⟨⟨hv, ?_⟩, ?_⟩
    · simp only [Bool.and_eq_true, bne_iff_ne, ne_eq, decide_eq_true_eq]
      exact ⟨fun e => kx (by rw [ex, e]), kb vx hvx (Or.inl (by rw [ex, hvxn]))⟩
    · simp only [Bool.and_eq_true, bne_iff_ne, ne_eq, decide_eq_true_eq]
      exact ⟨fun e => ky (by rw [ey, e]), kb vy hvy' (Or.inr (by rw [ey, hvyn]))⟩

/-- What a formatted field shows. -/
theorem formatted_shows (cfg : Cfg) (i : Nat) (c : Col α) (f f' : Fld α) (h : formatField cfg i c f = .ok f')
    (hx : f.x ≠ some maskName) (hy : f.y ≠ some maskName) :
    (∃ xn, f.x = some xn ∧ ∃ v ∈ f'.vars, v.name = xn ∧ v.place = .geom ∧ v.cell = .num c.cx) ∧
    (∃ yn, f.y = some yn ∧ ∃ v ∈ f'.vars, v.name = yn ∧ v.place = .geom ∧ v.cell = .num c.cy) ∧
    (∀ p ∈ c.props, ∃ v ∈ f'.vars, v.name = p.key ∧ v.place = .geom ∧ v.cell = p.cell) ∧
    (∀ v, IsKept f v → ∃ v' ∈ f'.vars, v'.name = v.name ∧ v'.place = v.place ∧ v'.cell = v.cell) := by
  obtain ⟨l, ev, ⟨xn, ex, vx, hvx, x1, x2, x3⟩, ⟨yn, ey, vy, hvy, y1, y2, y3⟩, hk⟩ := formatted_base cfg i c f f' h hx hy
  have key : ∀ v ∈ l ++ c.props.map propVar, ∃ v' ∈ f'.vars, v'.name = v.name ∧ v'.place = v.place ∧ v'.cell = v.cell := by
    intro v hv
    exact ⟨role v, by rw [ev]; exact List.mem_map_of_mem hv, role_name v, role_place v, role_cell v⟩
  refine ⟨⟨xn, ex, ?_⟩, ⟨yn, ey, ?_⟩, ?_, ?_⟩
  · obtain ⟨v', h1, h2, h3, h4⟩ := key vx (List.mem_append_left _ hvx)
    exact ⟨v', h1, h2.trans x1, h3.trans x2, h4.trans x3⟩
  · obtain ⟨v', h1, h2, h3, h4⟩ := key vy (List.mem_append_left _ hvy)
    exact ⟨v', h1, h2.trans y1, h3.trans y2, h4.trans y3⟩
  · intro p hp
    obtain ⟨v', h1, h2, h3, h4⟩ := key (propVar p) (List.mem_append_right _ (List.mem_map_of_mem hp))
    exact ⟨v', h1, h2, h3, h4⟩
  · intro v hv
    exact key v (List.mem_append_left _ (hk v hv))

theorem setAttr_lookup (d : List (String × String)) (k x v : String) :
    (setAttr d k v).lookup x = if x = k then some v else d.lookup x := by
  unfold setAttr
  by_cases ha : d.any (fun p => p.1 == k) = true
  · rw [if_pos ha]
    by_cases hx : x = k
    · subst hx
      rw [if_pos rfl]
      induction d with
      | nil => simp at ha
      | cons p d ih =>
        rw [List.map_cons]
        by_cases hp : (p.1 == x) = true
        · rw [if_pos hp, List.lookup_cons]; simp
        · rw [if_neg hp, List.lookup_cons]
          have hxp : (x == p.1) = false := by
            have : p.1 ≠ x := by simpa using hp
            simpa using this.symm
          rw [hxp]
          rw [List.any_cons] at ha
          simp only [Bool.or_eq_true] at ha
          rcases ha with h | h
          · exact absurd h hp
          · exact ih h
    · rw [if_neg hx]
      have e1 : (x == k) = false := by simpa using hx
      clear ha
      induction d with
      | nil => rfl
      | cons p d ih =>
        rw [List.map_cons]
        by_cases hp : (p.1 == k) = true
        · have hpk : p.1 = k := by simpa using hp
          rw [if_pos hp, List.lookup_cons, List.lookup_cons, hpk, e1]
          exact ih
        · rw [if_neg hp, List.lookup_cons, List.lookup_cons, ih]
  · rw [if_neg ha, List.lookup_append]
    by_cases hx : x = k
    · subst hx
      have : d.lookup x = none := by
        rw [List.lookup_eq_none_iff]
        intro p hp
        have hne : x ≠ p.1 := fun e => ha (List.any_eq_true.2 ⟨p, hp, by simpa using e.symm⟩)
        simpa using hne
      rw [this, if_pos rfl]; simp
    · have e1 : (x == k) = false := by simpa using hx
      rw [if_neg hx, List.lookup_cons, e1]; simp

theorem role_attrs (v : Vr α) (k : String) : (role v).attrs.lookup k =
    if v.name = gidName ∧ k = "cf_role" then some "timeseries_id" else v.attrs.lookup k := by
  unfold role
  by_cases h : v.name = gidName
  · rw [if_pos (by simpa using h)]
    simp only
    rw [setAttr_lookup]
    by_cases hk : k = "cf_role"
    · rw [if_pos hk, if_pos ⟨h, hk⟩]
    · rw [if_neg hk, if_neg (fun e => hk e.2)]
  · rw [if_neg (by simpa using h), if_neg (fun e => h e.1)]

/-! ## The file -/

theorem store_ok (v : Vr α) (pos : Nat) (fv fv' : FVar α) (h : store v pos fv = .ok fv') :
    v.place = fv.place ∧ (if v.place = .geom then pos else 0) < fv.cells.length ∧
      fv' = { fv with cells := fv.cells.set (if v.place = .geom then pos else 0) (some v.cell) } := by
  unfold store at h
  cases hf : fits fv.width v.cell with
  | error e => rw [hf] at h; exact nomatch h
  | ok u =>
    rw [hf] at h
    simp only at h
    by_cases hp : v.place = fv.place
    · rw [if_neg (by simpa using hp)] at h
      by_cases hl : (if v.place = .geom then pos else 0) < fv.cells.length
      · rw [if_pos hl] at h
        exact ⟨hp, hl, (Except.ok.inj h).symm⟩
      · rw [if_neg hl] at h; exact nomatch h
    · rw [if_pos (by simpa using hp)] at h; exact nomatch h

/-- What filling does to the variables of the file. -/
structure Filled (pos : Nat) (vs : List (Vr α)) (fv fv' : FVar α) : Prop where
  name : fv'.name = fv.name
  place : fv'.place = fv.place
  width : fv'.width = fv.width
  attrs : fv'.attrs = fv.attrs
  len : fv'.cells.length = fv.cells.length
  other : fv.place = .geom → ∀ j, j ≠ pos → fv'.cells[j]? = fv.cells[j]?
  untouched : (∀ v ∈ vs, v.name ≠ fv.name) → fv'.cells = fv.cells

theorem Filled.refl (pos : Nat) (vs : List (Vr α)) (fv : FVar α) : Filled pos vs fv fv :=
  ⟨rfl, rfl, rfl, rfl, rfl, fun _ _ _ => rfl, fun _ => rfl⟩

theorem storeIn_ok (v : Vr α) (pos : Nat) (fvs fvs' : List (FVar α)) (h : storeIn v pos fvs = .ok fvs') :
    List.Forall₂ (Filled pos [v]) fvs fvs' ∧
      ∃ fv' ∈ fvs', fv'.name = v.name ∧ fv'.place = v.place ∧
        fv'.cells[if v.place = .geom then pos else 0]? = some (some v.cell) := by
  induction fvs generalizing fvs' with
  | nil => exact nomatch h
  | cons fv fvs ih =>
    unfold storeIn at h
    by_cases hn : fv.name = v.name
    · rw [if_pos hn] at h
      cases hs : store v pos fv with
      | error e => rw [hs] at h; exact nomatch h
      | ok fv' =>
        rw [hs] at h
        obtain rfl := Except.ok.inj h
        obtain ⟨hp, hl, rfl⟩ := store_ok _ _ _ _ hs
        refine ⟨List.Forall₂.cons ⟨rfl, rfl, rfl, rfl, by simp, ?_, ?_⟩ ?_, ?_⟩
        · intro hg j hj
          simp only [hp, hg, if_true]
          rw [List.getElem?_set_ne (Ne.symm hj)]
        · intro hk; exact absurd hn.symm (hk v (by simp))
        · exact List.forall₂_same.2 fun x _ => Filled.refl _ _ x
        · exact ⟨_, List.mem_cons_self, hn, hp.symm, by simp only [List.getElem?_set_self hl]⟩
    · rw [if_neg hn] at h
      cases hs : storeIn v pos fvs with
      | error e => rw [hs] at h; exact nomatch h
      | ok fvs1 =>
        rw [hs] at h
        obtain rfl := Except.ok.inj h
        obtain ⟨h1, fv', h2, h3⟩ := ih _ hs
        exact ⟨List.Forall₂.cons (Filled.refl _ _ fv) h1, fv', List.mem_cons_of_mem _ h2, h3⟩

theorem filled_names {pos : Nat} {vs : List (Vr α)} {a b : List (FVar α)} (h : List.Forall₂ (Filled pos vs) a b) :
    b.map FVar.name = a.map FVar.name := by
  induction h with
  | nil => rfl
  | cons h _ ih => rw [List.map_cons, List.map_cons, h.name, ih]

theorem filled_trans {pos : Nat} {v : Vr α} {vs : List (Vr α)} {a b c : List (FVar α)}
    (h1 : List.Forall₂ (Filled pos [v]) a b) (h2 : List.Forall₂ (Filled pos vs) b c) :
    List.Forall₂ (Filled pos (v :: vs)) a c := by
  induction h1 generalizing c with
  | nil => cases h2; exact .nil
  | cons p _ ih =>
    cases h2 with
    | cons q qs =>
      refine .cons ⟨q.name.trans p.name, q.place.trans p.place, q.width.trans p.width, q.attrs.trans p.attrs, q.len.trans p.len, ?_, ?_⟩ (ih qs)
      · intro hg j hj
        rw [q.other (p.place.trans hg) j hj, p.other hg j hj]
      · intro hk
        rw [q.untouched (fun v' hv' => by rw [p.name]; exact hk v' (List.mem_cons_of_mem _ hv')),
          p.untouched (fun v' hv' => by
            rw [List.mem_singleton] at hv'; subst hv'; exact hk v' List.mem_cons_self)]

theorem forall₂_mem {β γ : Type} {R : β → γ → Prop} {a : List β} {b : List γ} (h : List.Forall₂ R a b) :
    (∀ x ∈ a, ∃ y ∈ b, R x y) ∧ (∀ y ∈ b, ∃ x ∈ a, R x y) := by
  induction h with
  | nil => simp
  | cons h _ ih =>
    constructor
    · intro x hx
      rcases List.mem_cons.1 hx with rfl | hx
      · exact ⟨_, List.mem_cons_self, h⟩
      · obtain ⟨y, hy, hr⟩ := ih.1 x hx
        exact ⟨y, List.mem_cons_of_mem _ hy, hr⟩
    · intro y hy
      rcases List.mem_cons.1 hy with rfl | hy
      · exact ⟨_, List.mem_cons_self, h⟩
      · obtain ⟨x, hx, hr⟩ := ih.2 y hy
        exact ⟨x, List.mem_cons_of_mem _ hx, hr⟩

theorem fillVars_ok (vs : List (Vr α)) (pos : Nat) (fvs fvs' : List (FVar α)) (h : fillVars pos vs fvs = .ok fvs')
    (hn : (vs.map Vr.name).Nodup) :
    List.Forall₂ (Filled pos vs) fvs fvs' ∧
      ∀ v ∈ vs, ∃ fv' ∈ fvs', fv'.name = v.name ∧ fv'.place = v.place ∧
        fv'.cells[if v.place = .geom then pos else 0]? = some (some v.cell) := by
  induction vs generalizing fvs with
  | nil =>
    obtain rfl := Except.ok.inj h
    exact ⟨List.forall₂_same.2 fun x _ => Filled.refl _ _ x, by simp⟩
  | cons v vs ih =>
    unfold fillVars at h
    cases hs : storeIn v pos fvs with
    | error e => rw [hs] at h; exact nomatch h
    | ok fvs1 =>
      rw [hs] at h
      rw [List.map_cons, List.nodup_cons] at hn
      obtain ⟨h1, fv1, hm, hnm, hpl, hcell⟩ := storeIn_ok _ _ _ _ hs
      obtain ⟨h2, h3⟩ := ih _ h hn.2
      refine ⟨filled_trans h1 h2, ?_⟩
      intro w hw
      rcases List.mem_cons.1 hw with rfl | hw
      · obtain ⟨fv2, hm2, hr⟩ := (forall₂_mem h2).1 fv1 hm
        refine ⟨fv2, hm2, hr.name.trans hnm, hr.place.trans hpl, ?_⟩
        rw [hr.untouched]
        · exact hcell
        · intro u hu e
          exact hn.1 (List.mem_map.2 ⟨u, hu, e.trans hnm⟩)
      · exact h3 w hw

/-- What creating does. -/
theorem create_vars (gsize gpos : Nat) (vs : List (Vr α)) (fvs : List (FVar α))
    (h : vs.mapM (fun v => store v gpos (newVar gsize v)) = .ok fvs) :
    List.Forall₂ (fun v fv => fv.name = v.name ∧ fv.place = v.place ∧ fv.attrs = v.attrs ∧ fv.width = (newVar gsize v).width ∧
      fv.cells = (List.replicate (if v.place = .geom then gsize else 1) none).set (if v.place = .geom then gpos else 0) (some v.cell) ∧
      (if v.place = .geom then gpos else 0) < (if v.place = .geom then gsize else 1)) vs fvs := by
  induction vs generalizing fvs with
  | nil =>
    rw [List.mapM_nil] at h
    obtain rfl := Except.ok.inj h
    exact .nil
  | cons v vs ih =>
    rw [List.mapM_cons] at h
    cases hs : store v gpos (newVar gsize v) with
    | error e => rw [hs] at h; exact nomatch h
    | ok fv =>
      rw [hs] at h
      cases hr : vs.mapM (fun v => store v gpos (newVar gsize v)) with
      | error e => rw [hr] at h; exact nomatch h
      | ok fvs1 =>
        rw [hr] at h
        obtain rfl : fv :: fvs1 = fvs := Except.ok.inj h
        obtain ⟨_, hl, rfl⟩ := store_ok _ _ _ _ hs
        refine .cons ⟨rfl, rfl, rfl, rfl, rfl, ?_⟩ (ih _ hr)
        simpa [newVar] using hl

/-! ## The loop -/

/-- A collection was formatted for a place and is shown there. -/
def Shown (cfg : Cfg) (file : File α) (j : Nat) (c : Col α) : Prop :=
  ∃ f fs f', c.fields = f :: fs ∧ formatField cfg j c f = .ok f' ∧
    ∀ v ∈ written f', v.place = .geom → ShowsAt file v.name j v.cell

/-- The state after the collections `done`. -/
structure Inv (cfg : Cfg) (file : File α) (done : List (Col α)) : Prop where
  nodup : (file.vars.map FVar.name).Nodup
  size : file.gsize = cfg.ngeom
  len : ∀ fv ∈ file.vars, fv.cells.length = if fv.place = .geom then cfg.ngeom else 1
  shapes : ∀ fv ∈ file.vars, fv.place ≠ .shape
  later : ∀ fv ∈ file.vars, fv.place = .geom → ∀ j, done.length ≤ j → j < cfg.ngeom → fv.cells[j]? = some none
  count : done.length ≤ cfg.ngeom
  shown : ∀ j c, done[j]? = some c → Shown cfg file j c
  plain : ∀ c, done.getLast? = some c → ∃ f fs f', c.fields = f :: fs ∧ formatField cfg (done.length - 1) c f = .ok f' ∧
    ∀ v ∈ written f', v.place = .plain → ShowsPlain file v.name v.cell
  first : ∀ c, done.head? = some c → ∃ f fs f', c.fields = f :: fs ∧ formatField cfg 0 c f = .ok f' ∧
    file.gname = cfg.geomDim.getD f.gname ∧
    file.attrs = setAttr (setAttr f.attrs "history" (((f.attrs.lookup "history").getD "") ++ cfg.stamp)) "featureType" "timeSeries" ∧
    List.Forall₂ (fun v fv => fv.name = v.name ∧ fv.place = v.place ∧ fv.attrs = v.attrs ∧ fv.width = (newVar cfg.ngeom v).width)
      (written f') file.vars

theorem preformat_ok (cfg : Cfg) (ha : cfg.aggregate = true) (i : Nat) (c : Col α) (c' : Option (Col α)) (file : Option (File α)) (file' : File α)
    (h : preformat cfg i c = .ok c') (hw : writeColl cfg c' file = .ok file') :
    ∃ f fs f', c.fields = f :: fs ∧ formatField cfg i c f = .ok f' ∧
      (match file with
        | none => createFile cfg f'
        | some file => match fillVars f'.gpos (written f') file.vars with
          | .error e => .error e
          | .ok vars => .ok { file with vars := vars }) = .ok file' := by
  unfold preformat at h
  rw [if_pos ha] at h
  cases hf : c.fields with
  | nil => rw [hf] at h; obtain rfl := Except.ok.inj h; exact nomatch hw
  | cons f fs =>
    rw [hf] at h
    simp only at h
    cases hm : formatField cfg i c f with
    | error e => rw [hm] at h; exact nomatch h
    | ok f' =>
      rw [hm] at h
      obtain rfl := Except.ok.inj h
      refine ⟨f, fs, f', rfl, hm, ?_⟩
      exact hw

theorem written_nodup {f : Fld α} (h : (f.vars.map Vr.name).Nodup) : ((written f).map Vr.name).Nodup :=
  h.sublist (List.filter_sublist.map _)

theorem names_of_forall₂ {a : List (Vr α)} {b : List (FVar α)} (h : List.Forall₂ (fun v fv => fv.name = v.name) a b) :
    b.map FVar.name = a.map Vr.name := by
  induction h with
  | nil => rfl
  | cons h _ ih => rw [List.map_cons, List.map_cons, h, ih]

theorem rows_trans {n pos : Nat} {ws : List (Vr α)} {a : List (Vr α)} {b c : List (FVar α)}
    (h1 : List.Forall₂ (fun v fv => fv.name = v.name ∧ fv.place = v.place ∧ fv.attrs = v.attrs ∧ fv.width = (newVar n v).width) a b)
    (h2 : List.Forall₂ (Filled pos ws) b c) :
    List.Forall₂ (fun v fv => fv.name = v.name ∧ fv.place = v.place ∧ fv.attrs = v.attrs ∧ fv.width = (newVar n v).width) a c := by
  induction h1 generalizing c with
  | nil => cases h2; exact .nil
  | cons h _ ih =>
    cases h2 with
    | cons hr hrs =>
      exact .cons ⟨hr.name.trans h.1, hr.place.trans h.2.1, hr.attrs.trans h.2.2.1, hr.width.trans h.2.2.2⟩ (ih hrs)

theorem inv_first (cfg : Cfg) (ha : cfg.aggregate = true) (c : Col α) (f : Fld α) (fs : List (Fld α)) (f' : Fld α) (file : File α)
    (hc : c.fields = f :: fs) (hf : formatField cfg 0 c f = .ok f') (hcr : createFile cfg f' = .ok file)
    (hn : (f.vars.map Vr.name).Nodup) (hfv : ∃ v ∈ f'.vars, v.place = .geom) : Inv cfg file [c] := by
  obtain ⟨xn, yn, vx, vy, l1, l2, ex, ey, e1, hvx, hvxn, e2, hvy, hvyn, hne, xa, ya, l, exa, eya, el, ev, hnod, hgid, hsize, hpos, hname, hattrs⟩ :=
    formatField_ok cfg 0 c f f' hf
  unfold createFile at hcr
  simp only at hcr
  cases hv : (written f').mapM fun v => store v f'.gpos (newVar f'.gsize v) with
  | error e => rw [hv] at hcr; exact nomatch hcr
  | ok fvs =>
    rw [hv] at hcr
    obtain rfl := Except.ok.inj hcr
    have hF := create_vars _ _ _ _ hv
    rw [hsize, hpos] at hF
    have hnames : fvs.map FVar.name = (written f').map Vr.name :=
      names_of_forall₂ (hF.imp fun _ _ h => h.1)
    have hmem := forall₂_mem hF
    obtain ⟨vg, hvg, hvgp⟩ := hfv
    have hvgw : vg ∈ written f' := by
      unfold written; rw [List.mem_filter]; exact ⟨hvg, by rw [hvgp]; decide⟩
    have h0 : 0 < cfg.ngeom := by
      obtain ⟨fv, _, _, _, _, _, _, h6⟩ := hmem.1 vg hvgw
      rw [hvgp] at h6; simpa using h6
    refine ⟨by rw [hnames]; exact written_nodup (hnod hn), hsize, ?_, ?_, ?_, h0, ?_, ?_, ?_⟩
    · intro fv hfv
      obtain ⟨v, hv, h1, h2, _, _, h5, h6⟩ := hmem.2 fv hfv
      rw [h5, h2]; simp
    · intro fv hfv
      obtain ⟨v, hv, h1, h2, _⟩ := hmem.2 fv hfv
      rw [h2]
      unfold written at hv
      simpa using (List.mem_filter.1 hv).2
    · intro fv hfv hg j hj hjn
      obtain ⟨v, hv, h1, h2, _, _, h5, h6⟩ := hmem.2 fv hfv
      rw [h2] at hg
      rw [h5, hg]
      simp only [List.length_singleton] at hj
      simp only [if_true]
      rw [List.getElem?_set_ne (by omega), List.getElem?_replicate, if_pos hjn]
    · intro j c' hj
      have hj0 : j = 0 := by
        rcases j with _ | j
        · rfl
        · simp at hj
      subst hj0
      obtain rfl : c = c' := by simpa using hj
      refine ⟨f, fs, f', hc, hf, ?_⟩
      intro v hv hg
      obtain ⟨fv, hfv, h1, h2, _, _, h5, h6⟩ := hmem.1 v hv
      rw [hg] at h5 h6
      simp only [if_true] at h5 h6
      exact ⟨fv, hfv, h1, h2.trans hg, by rw [h5, List.getElem?_set_self (by simpa using h6)]⟩
    · intro c' hl
      obtain rfl : c = c' := by simpa using hl
      refine ⟨f, fs, f', hc, hf, ?_⟩
      intro v hv hg
      obtain ⟨fv, hfv, h1, h2, _, _, h5, h6⟩ := hmem.1 v hv
      rw [hg] at h5
      exact ⟨fv, hfv, h1, h2.trans hg, by rw [h5]; rfl⟩
    · intro c' hl
      obtain rfl : c = c' := by simpa using hl
      refine ⟨f, fs, f', hc, hf, hname, ?_, ?_⟩
      · show (if cfg.aggregate then _ else _) = _
        rw [if_pos ha, hattrs]
      · exact hF.imp fun v fv h => ⟨h.1, h.2.1, h.2.2.1, h.2.2.2.1⟩

theorem inv_next (cfg : Cfg) (done : List (Col α)) (file : File α) (hinv : Inv cfg file done) (hdone : done ≠ []) (c : Col α)
    (f : Fld α) (fs : List (Fld α)) (f' : Fld α) (vars : List (FVar α)) (hc : c.fields = f :: fs)
    (hf : formatField cfg done.length c f = .ok f') (hfill : fillVars f'.gpos (written f') file.vars = .ok vars)
    (hn : (f.vars.map Vr.name).Nodup) (hfv : ∃ v ∈ f'.vars, v.place = .geom) :
    Inv cfg { file with vars := vars } (done ++ [c]) := by
  obtain ⟨xn, yn, vx, vy, l1, l2, ex, ey, e1, hvx, hvxn, e2, hvy, hvyn, hne, xa, ya, l, exa, eya, el, ev, hnod, hgid, hsize, hpos, hname, hattrs⟩ :=
    formatField_ok cfg done.length c f f' hf
  rw [hpos] at hfill
  obtain ⟨hF, hS⟩ := fillVars_ok _ _ _ _ hfill (written_nodup (hnod hn))
  have hmem := forall₂_mem hF
  obtain ⟨vg, hvg, hvgp⟩ := hfv
  have hvgw : vg ∈ written f' := by
    unfold written; rw [List.mem_filter]; exact ⟨hvg, by rw [hvgp]; decide⟩
  have hlt : done.length < cfg.ngeom := by
    obtain ⟨fv', hm, h1, h2, h3⟩ := hS vg hvgw
    obtain ⟨fv, hm0, hr⟩ := hmem.2 fv' hm
    have hl := hinv.len fv hm0
    rw [hvgp] at h2 h3
    rw [← hr.len, ← hr.place, h2, if_pos rfl] at hl
    simp only [if_true] at h3
    obtain ⟨hlt, _⟩ := List.getElem?_eq_some_iff.1 h3
    omega
  refine ⟨?_, hinv.size, ?_, ?_, ?_, by rw [List.length_append]; exact hlt, ?_, ?_, ?_⟩
  · show (vars.map FVar.name).Nodup
    rw [filled_names hF]; exact hinv.nodup
  · intro fv' hm
    obtain ⟨fv, hm0, hr⟩ := hmem.2 fv' hm
    rw [hr.len, hr.place]; exact hinv.len fv hm0
  · intro fv' hm
    obtain ⟨fv, hm0, hr⟩ := hmem.2 fv' hm
    rw [hr.place]; exact hinv.shapes fv hm0
  · intro fv' hm hg j hj hjn
    obtain ⟨fv, hm0, hr⟩ := hmem.2 fv' hm
    rw [List.length_append, List.length_singleton] at hj
    rw [hr.other (by rw [← hr.place]; exact hg) j (by omega)]
    exact hinv.later fv hm0 (by rw [← hr.place]; exact hg) j (by omega) hjn
  · intro j c' hj
    by_cases hlt' : j < done.length
    · rw [List.getElem?_append_left hlt'] at hj
      obtain ⟨g, gs, g', hc', hg', hsh⟩ := hinv.shown j c' hj
      refine ⟨g, gs, g', hc', hg', ?_⟩
      intro v hv hp
      obtain ⟨fv, hm0, h1, h2, h3⟩ := hsh v hv hp
      obtain ⟨fv', hm, hr⟩ := hmem.1 fv hm0
      exact ⟨fv', hm, hr.name.trans h1, hr.place.trans h2, by rw [hr.other h2 j (by omega)]; exact h3⟩
    · have hj' : j = done.length := by
        have := (List.getElem?_eq_some_iff.1 hj).1
        rw [List.length_append, List.length_singleton] at this
        omega
      subst hj'
      obtain rfl : c = c' := by simpa using hj
      refine ⟨f, fs, f', hc, hf, ?_⟩
      intro v hv hp
      obtain ⟨fv', hm, h1, h2, h3⟩ := hS v hv
      rw [hp] at h3
      exact ⟨fv', hm, h1, h2.trans hp, h3⟩
  · intro c' hl
    obtain rfl : c = c' := by simpa using hl
    refine ⟨f, fs, f', hc, by simpa using hf, ?_⟩
    intro v hv hp
    obtain ⟨fv', hm, h1, h2, h3⟩ := hS v hv
    refine ⟨fv', hm, h1, h2.trans hp, ?_⟩
    obtain ⟨fv, hm0, hr⟩ := hmem.2 fv' hm
    have hlen := hinv.len fv hm0
    rw [← hr.place, h2, hp, ← hr.len] at hlen
    simp only [reduceCtorEq, if_false] at hlen
    rw [hp] at h3
    simp only [reduceCtorEq, if_false] at h3
    match hcs : fv'.cells with
    | [] => rw [hcs] at hlen; simp at hlen
    | [a] => rw [hcs] at h3; simpa using h3
    | a :: b :: r => rw [hcs] at hlen; simp at hlen
  · intro c' hl
    have hl' : done.head? = some c' := by
      cases done with
      | nil => exact absurd rfl hdone
      | cons d ds => simpa using hl
    obtain ⟨g, gs, g', h1, h2, h3, h4, h5⟩ := hinv.first c' hl'
    refine ⟨g, gs, g', h1, h2, h3, h4, ?_⟩
    show List.Forall₂ _ (written g') vars
    exact rows_trans h5 hF

theorem formatted_has_geom (cfg : Cfg) (i : Nat) (c : Col α) (f f' : Fld α) (h : formatField cfg i c f = .ok f')
    (hx : f.x ≠ some maskName) (hy : f.y ≠ some maskName) : ∃ v ∈ f'.vars, v.place = .geom := by
  obtain ⟨⟨xn, _, v, hv, _, hp, _⟩, _⟩ := formatted_shows cfg i c f f' h hx hy
  exact ⟨v, hv, hp⟩

theorem writeFrom_some (cfg : Cfg) (ha : cfg.aggregate = true) (cs done : List (Col α)) (file file' : File α)
    (hinv : Inv cfg file done) (hdone : done ≠ []) (hfit : ∀ c ∈ cs, FitNames c)
    (h : writeFrom cfg done.length cs (some file) = .ok (some file')) : Inv cfg file' (done ++ cs) := by
  induction cs generalizing done file with
  | nil =>
    unfold writeFrom at h
    have := Option.some.inj (Except.ok.inj h)
    subst this
    simpa using hinv
  | cons c cs ih =>
    unfold writeFrom at h
    cases hp : preformat cfg done.length c with
    | error e => rw [hp] at h; exact nomatch h
    | ok c' =>
      rw [hp] at h
      simp only at h
      cases hw : writeColl cfg c' (some file) with
      | error e => rw [hw] at h; exact nomatch h
      | ok file1 =>
        rw [hw] at h
        simp only at h
        obtain ⟨f, fs, f', hc, hf, hr⟩ := preformat_ok cfg ha _ _ _ _ _ hp hw
        obtain ⟨n1, n2, n3⟩ := hfit c List.mem_cons_self f (by rw [hc]; exact List.mem_cons_self)
        simp only at hr
        cases hv : fillVars f'.gpos (written f') file.vars with
        | error e => rw [hv] at hr; exact nomatch hr
        | ok vars =>
          rw [hv] at hr
          obtain rfl := Except.ok.inj hr
          have hinv' := inv_next cfg done file hinv hdone c f fs f' vars hc hf hv n1 (formatted_has_geom cfg _ c f f' hf n2 n3)
          have := ih (done ++ [c]) _ hinv' (by simp) (fun d hd => hfit d (List.mem_cons_of_mem _ hd)) (by
            rw [List.length_append, List.length_singleton]; exact h)
          rwa [List.append_assoc] at this

theorem writeFrom_inv (cfg : Cfg) (ha : cfg.aggregate = true) (cs : List (Col α)) (file : File α)
    (hfit : ∀ c ∈ cs, FitNames c) (h : writeFrom cfg 0 cs none = .ok (some file)) : Inv cfg file cs ∧ cs ≠ [] := by
  cases cs with
  | nil => exact nomatch h
  | cons c cs =>
    refine ⟨?_, by simp⟩
    unfold writeFrom at h
    cases hp : preformat cfg 0 c with
    | error e => rw [hp] at h; exact nomatch h
    | ok c' =>
      rw [hp] at h
      simp only at h
      cases hw : writeColl cfg c' none with
      | error e => rw [hw] at h; exact nomatch h
      | ok file1 =>
        rw [hw] at h
        simp only at h
        obtain ⟨f, fs, f', hc, hf, hr⟩ := preformat_ok cfg ha _ _ _ _ _ hp hw
        obtain ⟨n1, n2, n3⟩ := hfit c List.mem_cons_self f (by rw [hc]; exact List.mem_cons_self)
        simp only at hr
        have hinv := inv_first cfg ha c f fs f' file1 hc hf hr n1 (formatted_has_geom cfg _ c f f' hf n2 n3)
        exact writeFrom_some cfg ha cs [c] file1 file hinv (by simp) (fun d hd => hfit d (List.mem_cons_of_mem _ hd)) h

/-! ## Success -/

/-- Variables that can stand beside each other. -/
def Rel (v w : Vr α) : Prop :=
  v.name = w.name ∧ v.place = w.place ∧ v.bounds = w.bounds ∧ isText v.cell = isText w.cell ∧ lengthOf v.cell ≤ roomFor w.width w.cell

theorem rel_any {l m : List (Vr α)} (h : List.Forall₂ Rel l m) (n : String) :
    (l.any fun v => v.name == n) = (m.any fun v => v.name == n) := by
  induction h with
  | nil => rfl
  | cons h _ ih => rw [List.any_cons, List.any_cons, h.1, ih]

theorem rel_filter {l m : List (Vr α)} (h : List.Forall₂ Rel l m) (p q : Vr α → Bool) (hpq : ∀ v w, Rel v w → p v = q w) :
    List.Forall₂ Rel (l.filter p) (m.filter q) := by
  induction h with
  | nil => exact .nil
  | cons h _ ih =>
    rw [List.filter_cons, List.filter_cons, hpq _ _ h]
    split
    · exact .cons h ih
    · exact ih

theorem rel_map {β : Type} {R : β → β → Prop} {l m : List β} (h : List.Forall₂ R l m) (g : β → Vr α) (hg : ∀ v w, R v w → Rel (g v) (g w)) :
    List.Forall₂ Rel (l.map g) (m.map g) := by
  induction h with
  | nil => exact .nil
  | cons h _ ih => exact .cons (hg _ _ h) ih

theorem rel_append {l m l' m' : List (Vr α)} (h : List.Forall₂ Rel l m) (h' : List.Forall₂ Rel l' m') :
    List.Forall₂ Rel (l ++ l') (m ++ m') := by
  induction h with
  | nil => exact h'
  | cons h _ ih => exact .cons h ih

theorem rel_find {l m : List (Vr α)} (h : List.Forall₂ Rel l m) (n : String) :
    (l.find? (fun v => v.name == n) = none ∧ m.find? (fun v => v.name == n) = none) ∨
    ∃ v w, l.find? (fun v => v.name == n) = some v ∧ m.find? (fun v => v.name == n) = some w ∧ Rel v w := by
  induction h with
  | nil => exact Or.inl ⟨rfl, rfl⟩
  | @cons v w _ _ h _ ih =>
    rw [List.find?_cons, List.find?_cons, h.1]
    cases (w.name == n) with
    | true => exact Or.inr ⟨v, w, rfl, rfl, h⟩
    | false => exact ih

theorem rel_removeVar {l m m' : List (Vr α)} (h : List.Forall₂ Rel l m) (n : String) (hm : removeVar m n = .ok m') :
    ∃ l', removeVar l n = .ok l' ∧ List.Forall₂ Rel l' m' := by
  unfold removeVar at hm ⊢
  rcases rel_find h n with ⟨_, e⟩ | ⟨v, w, e1, e2, hr⟩
  · rw [e] at hm; exact nomatch hm
  · rw [e2] at hm
    obtain rfl := Except.ok.inj hm
    rw [e1]
    refine ⟨_, rfl, rel_filter h _ _ ?_⟩
    intro a b hab
    rw [hab.1, hr.2.2.1]

theorem rel_addVar {l m m' : List (Vr α)} (h : List.Forall₂ Rel l m) (v w : Vr α) (hvw : Rel v w) (hm : addVar m w = .ok m') :
    ∃ l', addVar l v = .ok l' ∧ List.Forall₂ Rel l' m' := by
  obtain ⟨rfl, _⟩ := addVar_ok _ _ _ hm
  unfold addVar at hm ⊢
  rw [rel_any h, hvw.1]
  split at hm
  · exact nomatch hm
  · rename_i hn
    rw [if_neg hn]
    exact ⟨_, rfl, rel_append h (.cons hvw .nil)⟩

/-- Properties that can stand beside each other. -/
def RelP (v w : Prop' α) : Prop :=
  v.key = w.key ∧ isText v.cell = isText w.cell ∧ lengthOf v.cell ≤ roomFor w.width w.cell

theorem rel_prop (v w : Prop' α) (h : RelP v w) : Rel (propVar v) (propVar w) := ⟨h.1, rfl, rfl, h.2.1, h.2.2⟩

theorem rel_addProps {ps qs : List (Prop' α)} (hp : List.Forall₂ RelP ps qs) {l m m' : List (Vr α)} (h : List.Forall₂ Rel l m)
    (hm : addProps m qs = .ok m') : ∃ l', addProps l ps = .ok l' ∧ List.Forall₂ Rel l' m' := by
  induction hp generalizing l m with
  | nil =>
    obtain rfl := Except.ok.inj hm
    exact ⟨l, rfl, h⟩
  | @cons p q ps qs hpq _ ih =>
    unfold addProps at hm ⊢
    cases ha : addVar m { name := q.key, place := .geom, cell := q.cell, width := q.width } with
    | error e => rw [ha] at hm; exact nomatch hm
    | ok m1 =>
      rw [ha] at hm
      obtain ⟨l1, e1, h1⟩ := rel_addVar h (propVar p) (propVar q) (rel_prop p q hpq) ha
      obtain ⟨l', e2, h2⟩ := ih h1 hm
      refine ⟨l', ?_, h2⟩
      have : addVar l { name := p.key, place := .geom, cell := p.cell, width := p.width } = .ok l1 := e1
      rw [this]
      exact e2

theorem rel_role (v w : Vr α) (h : Rel v w) : Rel (role v) (role w) := by
  have hb : ∀ u : Vr α, (role u).bounds = u.bounds := fun u => by unfold role; split <;> rfl
  refine ⟨?_, ?_, ?_, ?_, ?_⟩
  · rw [role_name, role_name]; exact h.1
  · rw [role_place, role_place]; exact h.2.1
  · rw [hb, hb]; exact h.2.2.1
  · rw [role_cell, role_cell]; exact h.2.2.2.1
  · rw [role_cell, role_cell, role_width]; exact h.2.2.2.2

theorem rel_coord (n : String) (a b : α) (xa xb : List (String × String)) : Rel (coord n a xa t) (coord n b xb t) :=
  ⟨rfl, rfl, rfl, rfl, Nat.zero_le _⟩

/-- A collection that can stand beside one that was formatted can be formatted. -/
theorem format_beside (cfg : Cfg) (i j : Nat) (c d : Col α) (f g g' : Fld α) (hb : Beside c d f g)
    (hg : formatField cfg j d g = .ok g') :
    ∃ f', formatField cfg i c f = .ok f' ∧ List.Forall₂ Rel f'.vars g'.vars := by
  have hvars : List.Forall₂ Rel f.vars g.vars := hb.vars
  have hprops : List.Forall₂ RelP c.props d.props := hb.props
  unfold formatField at hg ⊢
  rw [hb.x, hb.y]
  cases hx : g.x with
  | none => rw [hx] at hg; simp at hg
  | some xn =>
    cases hy : g.y with
    | none => rw [hx, hy] at hg; simp at hg
    | some yn =>
      rw [hx, hy] at hg
      simp only at hg ⊢
      cases h1 : removeVar g.vars xn with
      | error e => rw [h1] at hg; exact nomatch hg
      | ok m1 =>
        rw [h1] at hg
        obtain ⟨l1, e1, r1⟩ := rel_removeVar hvars xn h1
        rw [e1]
        simp only at hg ⊢
        cases h2 : removeVar m1 yn with
        | error e => rw [h2] at hg; exact nomatch hg
        | ok m2 =>
          rw [h2] at hg
          obtain ⟨l2, e2, r2⟩ := rel_removeVar r1 yn h2
          rw [e2]
          simp only at hg ⊢
          cases h3 : addVar m2 (coord xn d.cx (attrsOf g.vars xn) "Centroid longitude") with
          | error e => simp only [coord] at h3; rw [h3] at hg; exact nomatch hg
          | ok m3 =>
            have h3' := h3
            simp only [coord] at h3'
            rw [h3'] at hg
            obtain ⟨l3, e3, r3⟩ := rel_addVar r2 (coord xn c.cx (attrsOf f.vars xn) "Centroid longitude") _ (rel_coord _ _ _ _ _) h3
            simp only [coord] at e3
            rw [e3]
            simp only at hg ⊢
            cases h4 : addVar m3 (coord yn d.cy (attrsOf g.vars yn) "Centroid latitude") with
            | error e => simp only [coord] at h4; rw [h4] at hg; exact nomatch hg
            | ok m4 =>
              have h4' := h4
              simp only [coord] at h4'
              rw [h4'] at hg
              obtain ⟨l4, e4, r4⟩ := rel_addVar r3 (coord yn c.cy (attrsOf f.vars yn) "Centroid latitude") _ (rel_coord _ _ _ _ _) h4
              simp only [coord] at e4
              rw [e4]
              simp only at hg ⊢
              rw [rel_any r4]
              have r5 : List.Forall₂ Rel
                  (if m4.any (fun v => v.name == maskName) then l4.filter (fun v => v.name != maskName) else l4)
                  (if m4.any (fun v => v.name == maskName) then m4.filter (fun v => v.name != maskName) else m4) := by
                split
                · exact rel_filter r4 _ _ fun v w h => by rw [h.1]
                · exact r4
              revert hg r5
              generalize (if m4.any (fun v => v.name == maskName) then l4.filter (fun v => v.name != maskName) else l4) = l5
              generalize (if m4.any (fun v => v.name == maskName) then m4.filter (fun v => v.name != maskName) else m4) = m5
              intro hg r5
              cases h6 : addProps m5 d.props with
              | error e => rw [h6] at hg; exact nomatch hg
              | ok m6 =>
                rw [h6] at hg
                obtain ⟨l6, e6, r6⟩ := rel_addProps hprops r5 h6
                rw [e6]
                simp only at hg ⊢
                rw [rel_any r6]
                split at hg
                · rename_i hgid
                  rw [if_pos hgid]
                  obtain rfl := Except.ok.inj hg
                  exact ⟨_, rfl, rel_map r6 role rel_role⟩
                · exact nomatch hg

theorem removeVar_exists (l : List (Vr α)) (n : String) (h : ∃ v ∈ l, v.name = n) : ∃ l', removeVar l n = .ok l' := by
  unfold removeVar
  cases hf : l.find? (fun v => v.name == n) with
  | some v => exact ⟨_, rfl⟩
  | none =>
    obtain ⟨v, hv, e⟩ := h
    exact absurd (by simpa using e) (List.find?_eq_none.1 hf v hv)

theorem addVar_exists (l : List (Vr α)) (v : Vr α) (h : ∀ w ∈ l, w.name ≠ v.name) : addVar l v = .ok (l ++ [v]) := by
  unfold addVar
  rw [if_neg]
  intro ha
  obtain ⟨w, hw, e⟩ := List.any_eq_true.1 ha
  exact h w hw (by simpa using e)

theorem addProps_exists (ps : List (Prop' α)) (l : List (Vr α)) (h : ∀ p ∈ ps, ∀ w ∈ l, p.key ≠ w.name) (hn : (ps.map Prop'.key).Nodup) :
    addProps l ps = .ok (l ++ ps.map propVar) := by
  induction ps generalizing l with
  | nil => simp [addProps]
  | cons p ps ih =>
    unfold addProps
    rw [addVar_exists l _ (fun w hw e => h p List.mem_cons_self w hw e.symm)]
    simp only
    rw [List.map_cons, List.nodup_cons] at hn
    rw [ih _ ?_ hn.2]
    · simp [propVar]
    · intro q hq w hw
      rcases List.mem_append.1 hw with hw | hw
      · exact h q (List.mem_cons_of_mem _ hq) w hw
      · rw [List.mem_singleton] at hw
        subst hw
        intro e
        exact hn.1 (List.mem_map.2 ⟨q, hq, e⟩)

/-- A collection fit for it can be formatted. -/
theorem format_exists (cfg : Cfg) (i : Nat) (c : Col α) (f : Fld α) (xn yn : String) (h : Formattable c f xn yn) :
    ∃ f', formatField cfg i c f = .ok f' := by
  obtain ⟨l1, e1⟩ := removeVar_exists f.vars xn h.hasX
  obtain ⟨vx, hvx, hvxn, d1⟩ := removeVar_ok _ _ _ e1
  obtain ⟨vy, hvy, hvyn, hvyb⟩ := h.hasY
  have hvy1 : vy ∈ l1 := by
    rw [d1, List.mem_filter]
    refine ⟨hvy, ?_⟩
    simp only [Bool.and_eq_true, bne_iff_ne, ne_eq, decide_eq_true_eq, hvyn]
    exact ⟨fun e => h.ne e.symm, hvyb vx hvx hvxn⟩
  obtain ⟨l2, e2⟩ := removeVar_exists l1 yn ⟨vy, hvy1, hvyn⟩
  obtain ⟨vy', hvy', hvyn', d2⟩ := removeVar_ok _ _ _ e2
  have sub2 : ∀ w ∈ l2, w ∈ f.vars ∧ w.name ≠ xn ∧ w.name ≠ yn := by
    intro w hw
    rw [d2, List.mem_filter, d1, List.mem_filter] at hw
    simp only [Bool.and_eq_true, bne_iff_ne, ne_eq, decide_eq_true_eq] at hw
    exact ⟨hw.1.1, hw.1.2.1, hw.2.1⟩
  have e3 := addVar_exists l2 (coord xn c.cx (attrsOf f.vars xn) "Centroid longitude") (fun w hw => (sub2 w hw).2.1)
  have e4 := addVar_exists (l2 ++ [coord xn c.cx (attrsOf f.vars xn) "Centroid longitude"]) (coord yn c.cy (attrsOf f.vars yn) "Centroid latitude") (by
    intro w hw
    rcases List.mem_append.1 hw with hw | hw
    · exact (sub2 w hw).2.2
    · rw [List.mem_singleton] at hw; subst hw; exact h.ne)
  unfold formatField
  rw [h.x, h.y]
  simp only [coord] at e3 e4
  simp only [e1, e2, e3, e4]
  obtain ⟨vg, kg, hgn⟩ := h.gid
  obtain ⟨kg1, kg2, kg3, kg4, kg5⟩ := kg
  have hvg2 : vg ∈ l2 := by
    rw [d2, List.mem_filter, d1, List.mem_filter]
    have hvy'' : vy' ∈ f.vars := by rw [d1] at hvy'; exact (List.mem_filter.1 hvy').1
    simp only [Bool.and_eq_true, bne_iff_ne, ne_eq, decide_eq_true_eq]
    exact ⟨⟨kg1, fun e => kg3 (by rw [h.x, e]), kg5 vx hvx (Or.inl (by rw [h.x, hvxn]))⟩, fun e => kg4 (by rw [h.y, e]),
      kg5 vy' hvy'' (Or.inr (by rw [h.y, hvyn']))⟩
  generalize hl5 : (if ((l2 ++ [({ name := xn, place := .geom, cell := .num c.cx, attrs := setAttr (attrsOf f.vars xn) "long_name" "Centroid longitude" } : Vr α)] ++
    [({ name := yn, place := .geom, cell := .num c.cy, attrs := setAttr (attrsOf f.vars yn) "long_name" "Centroid latitude" } : Vr α)]).any fun v => v.name == maskName) = true then _ else _) = l5
  have sub5 : ∀ w ∈ l5, ∃ v ∈ f.vars, v.name = w.name := by
    intro w hw
    have : w ∈ l2 ++ [coord xn c.cx (attrsOf f.vars xn) "Centroid longitude"] ++ [coord yn c.cy (attrsOf f.vars yn) "Centroid latitude"] := by
      rw [← hl5] at hw
      split at hw
      · exact (List.mem_filter.1 hw).1
      · exact hw
    rcases List.mem_append.1 this with hw | hw
    · rcases List.mem_append.1 hw with hw | hw
      · exact ⟨w, (sub2 w hw).1, rfl⟩
      · rw [List.mem_singleton] at hw; subst hw; exact ⟨vx, hvx, hvxn⟩
    · rw [List.mem_singleton] at hw; subst hw; exact ⟨vy, hvy, hvyn⟩
  have hvg5 : vg ∈ l5 := by
    rw [← hl5]
    split
    · exact List.mem_filter.2 ⟨List.mem_append_left _ (List.mem_append_left _ hvg2), by simpa using kg2⟩
    · exact List.mem_append_left _ (List.mem_append_left _ hvg2)
  rw [addProps_exists c.props l5 (fun p hp w hw e => by
    obtain ⟨v, hv, ev⟩ := sub5 w hw
    exact h.fresh p hp v hv (e.trans ev.symm)) h.once]
  simp only
  rw [if_pos (List.any_eq_true.2 ⟨vg, List.mem_append_left _ hvg5, by simpa using hgn⟩)]
  exact ⟨_, rfl⟩

theorem fits_newVar (n : Nat) (v w : Vr α) (h : Rel v w) : fits (newVar n w).width v.cell = .ok () := by
  obtain ⟨_, _, _, ht, hl⟩ := h
  unfold newVar
  cases hv : v.cell with
  | num a =>
    cases hw : w.cell with
    | num b => rfl
    | text s => rw [hv, hw] at ht; exact nomatch ht
  | text s =>
    cases hw : w.cell with
    | num b => rw [hv, hw] at ht; exact nomatch ht
    | text t =>
      rw [hv, hw] at hl
      simp only [lengthOf, roomFor] at hl
      simp only [fits]
      rw [if_pos hl]

/-- The library can store the variable. -/
def Good (pos : Nat) (fvs : List (FVar α)) (v : Vr α) : Prop :=
  (∃ fv ∈ fvs, fv.name = v.name) ∧ ∀ fv ∈ fvs, fv.name = v.name → v.place = fv.place ∧ fits fv.width v.cell = .ok () ∧
    (if v.place = .geom then pos else 0) < fv.cells.length

theorem store_exists (v : Vr α) (pos : Nat) (fv : FVar α) (h1 : v.place = fv.place) (h2 : fits fv.width v.cell = .ok ())
    (h3 : (if v.place = .geom then pos else 0) < fv.cells.length) : ∃ fv', store v pos fv = .ok fv' := by
  unfold store
  rw [h2]
  simp only
  rw [if_neg (by simpa using h1), if_pos h3]
  exact ⟨_, rfl⟩

theorem storeIn_exists (v : Vr α) (pos : Nat) (fvs : List (FVar α)) (h : Good pos fvs v) : ∃ fvs', storeIn v pos fvs = .ok fvs' := by
  induction fvs with
  | nil => obtain ⟨⟨fv, hm, _⟩, _⟩ := h; exact nomatch hm
  | cons fv fvs ih =>
    unfold storeIn
    by_cases hn : fv.name = v.name
    · obtain ⟨a, b, c⟩ := h.2 fv List.mem_cons_self hn
      obtain ⟨fv', e⟩ := store_exists v pos fv a b c
      rw [if_pos hn, e]
      exact ⟨_, rfl⟩
    · obtain ⟨fvs', e⟩ := ih ⟨by
        obtain ⟨u, hu, e⟩ := h.1
        rcases List.mem_cons.1 hu with rfl | hu
        · exact absurd e hn
        · exact ⟨u, hu, e⟩, fun u hu => h.2 u (List.mem_cons_of_mem _ hu)⟩
      rw [if_neg hn, e]
      exact ⟨_, rfl⟩

theorem good_filled {pos : Nat} {vs : List (Vr α)} {a b : List (FVar α)} (h : List.Forall₂ (Filled pos vs) a b) (v : Vr α) (hg : Good pos a v) :
    Good pos b v := by
  have hm := forall₂_mem h
  constructor
  · obtain ⟨fv, hf, e⟩ := hg.1
    obtain ⟨fv', hf', r⟩ := hm.1 fv hf
    exact ⟨fv', hf', r.name.trans e⟩
  · intro fv' hf' e
    obtain ⟨fv, hf, r⟩ := hm.2 fv' hf'
    obtain ⟨p, q, t⟩ := hg.2 fv hf (r.name.symm.trans e)
    exact ⟨p.trans r.place.symm, by rw [r.width]; exact q, by rw [r.len]; exact t⟩

theorem fillVars_exists (vs : List (Vr α)) (pos : Nat) (fvs : List (FVar α)) (h : ∀ v ∈ vs, Good pos fvs v) :
    ∃ fvs', fillVars pos vs fvs = .ok fvs' := by
  induction vs generalizing fvs with
  | nil => exact ⟨fvs, rfl⟩
  | cons v vs ih =>
    unfold fillVars
    obtain ⟨fvs1, e⟩ := storeIn_exists v pos fvs (h v List.mem_cons_self)
    rw [e]
    exact ih _ fun w hw => good_filled (storeIn_ok _ _ _ _ e).1 w (h w (List.mem_cons_of_mem _ hw))

theorem rel_written {f g : Fld α} (h : List.Forall₂ Rel f.vars g.vars) : List.Forall₂ Rel (written f) (written g) :=
  rel_filter h _ _ fun v w hr => by rw [hr.2.1]

theorem create_exists (cfg : Cfg) (f' : Fld α) (hroom : List.Forall₂ Rel f'.vars f'.vars) (hpos : f'.gpos < f'.gsize) :
    ∃ file, createFile cfg f' = .ok file := by
  have hw : List.Forall₂ Rel (written f') (written f') := rel_written hroom
  have : ∃ fvs, (written f').mapM (fun v => store v f'.gpos (newVar f'.gsize v)) = Except.ok (ε := PyErr) fvs := by
    have hs : ∀ v ∈ written f', Rel v v := List.forall₂_same.1 hw
    generalize written f' = ws at hs
    induction ws with
    | nil => exact ⟨[], rfl⟩
    | cons v vs ih =>
      obtain ⟨fvs, e⟩ := ih (fun w hw => hs w (List.mem_cons_of_mem _ hw))
      obtain ⟨fv, e'⟩ := store_exists v f'.gpos (newVar f'.gsize v) rfl (fits_newVar _ v v (hs v List.mem_cons_self)) (by
        simp only [newVar, List.length_replicate]
        split <;> simp [hpos])
      rw [List.mapM_cons, e', e]
      exact ⟨fv :: fvs, rfl⟩
  obtain ⟨fvs, e⟩ := this
  unfold createFile
  simp only
  rw [e]
  exact ⟨_, rfl⟩

theorem good_of_first (cfg : Cfg) (file : File α) (done : List (Col α)) (hinv : Inv cfg file done) (ws : List (Vr α))
    (hrows : List.Forall₂ (fun v fv => fv.name = v.name ∧ fv.place = v.place ∧ fv.attrs = v.attrs ∧ fv.width = (newVar cfg.ngeom v).width) ws file.vars)
    (hlt : done.length < cfg.ngeom) (vs : List (Vr α)) (hr : List.Forall₂ Rel vs ws) : ∀ v ∈ vs, Good done.length file.vars v := by
  intro v hv
  obtain ⟨w, hw, hvw⟩ := (forall₂_mem hr).1 v hv
  obtain ⟨fv, hfv, h1, h2, _, h4⟩ := (forall₂_mem hrows).1 w hw
  refine ⟨⟨fv, hfv, h1.trans hvw.1.symm⟩, ?_⟩
  intro fv' hfv' e
  have : fv' = fv := eq_of_nodup_map FVar.name hinv.nodup hfv' hfv (e.trans (hvw.1.trans h1.symm))
  subst this
  refine ⟨hvw.2.1.trans h2.symm, by rw [h4]; exact fits_newVar _ v w hvw, ?_⟩
  rw [hinv.len fv' hfv', h2, ← hvw.2.1]
  split
  · exact hlt
  · exact Nat.zero_lt_one

theorem writeFrom_exists_some (cfg : Cfg) (ha : cfg.aggregate = true) (d : Col α) (g : Fld α) (cs done : List (Col α)) (file : File α)
    (hinv : Inv cfg file done) (hhead : done.head? = some d) (hg : d.fields.head? = some g) (hfit : ∀ c ∈ cs, FitNames c)
    (hb : ∀ c ∈ cs, ∃ f, c.fields.head? = some f ∧ Beside c d f g) (hcount : done.length + cs.length ≤ cfg.ngeom) :
    ∃ file', writeFrom cfg done.length cs (some file) = .ok (some file') := by
  induction cs generalizing done file with
  | nil => exact ⟨file, rfl⟩
  | cons c cs ih =>
    obtain ⟨f, hf, hbes⟩ := hb c List.mem_cons_self
    obtain ⟨g0, gs, g', hg0, hgf, _, _, hrows⟩ := hinv.first d hhead
    have hgg : g0 = g := by rw [hg0] at hg; simpa using hg
    subst hgg
    obtain ⟨f', hf', hrel⟩ := format_beside cfg done.length 0 c d f g0 g' hbes hgf
    obtain ⟨fs, hc⟩ : ∃ fs, c.fields = f :: fs := by
      cases hcf : c.fields with
      | nil => rw [hcf] at hf; exact nomatch hf
      | cons a fs =>
        rw [hcf] at hf
        obtain rfl : a = f := by simpa using hf
        exact ⟨fs, rfl⟩
    have hlt : done.length < cfg.ngeom := by rw [List.length_cons] at hcount; omega
    obtain ⟨xn, yn, vx, vy, l1, l2, ex, ey, e1, hvx, hvxn, e2, hvy, hvyn, hne, xa, ya, l, exa, eya, el, ev, hnod, hgid, hsize, hpos, hname, hattrs⟩ :=
      formatField_ok cfg done.length c f f' hf'
    obtain ⟨vars, hv⟩ := fillVars_exists (written f') done.length file.vars
      (good_of_first cfg file done hinv (written g') hrows hlt _ (rel_written hrel))
    obtain ⟨n1, n2, n3⟩ := hfit c List.mem_cons_self f (by rw [hc]; exact List.mem_cons_self)
    have hv' : fillVars f'.gpos (written f') file.vars = .ok vars := by rw [hpos]; exact hv
    have hinv' := inv_next cfg done file hinv (by rintro rfl; exact nomatch hhead) c f fs f' vars hc hf' hv' n1
      (formatted_has_geom cfg _ c f f' hf' n2 n3)
    obtain ⟨file', e⟩ := ih (done ++ [c]) _ hinv' (by
        cases done with
        | nil => exact nomatch hhead
        | cons x xs => simpa using hhead) (fun x hx => hfit x (List.mem_cons_of_mem _ hx))
      (fun x hx => hb x (List.mem_cons_of_mem _ hx)) (by
        rw [List.length_append, List.length_singleton]; rw [List.length_cons] at hcount; omega)
    refine ⟨file', ?_⟩
    unfold writeFrom preformat
    rw [if_pos ha, hc]
    simp only
    rw [hf']
    simp only [writeColl]
    rw [hv']
    simp only
    rw [List.length_append, List.length_singleton] at e
    exact e

theorem writeFrom_exists (cfg : Cfg) (ha : cfg.aggregate = true) (d : Col α) (g : Fld α) (cs : List (Col α)) (xn yn : String)
    (hg : Formattable d g xn yn) (hfit : ∀ c ∈ d :: cs, FitNames c)
    (hb : ∀ c ∈ d :: cs, ∃ f, c.fields.head? = some f ∧ Beside c d f g) (hcount : (d :: cs).length ≤ cfg.ngeom) :
    ∃ file, writeFrom cfg 0 (d :: cs) none = .ok (some file) := by
  obtain ⟨gs, hc⟩ : ∃ gs, d.fields = g :: gs := by
    have := hg.field
    cases hcf : d.fields with
    | nil => rw [hcf] at this; exact nomatch this
    | cons a fs =>
      rw [hcf] at this
      obtain rfl : a = g := by simpa using this
      exact ⟨fs, rfl⟩
  obtain ⟨n1, n2, n3⟩ := hfit d List.mem_cons_self g (by rw [hc]; exact List.mem_cons_self)
  obtain ⟨g', hg'⟩ := format_exists cfg 0 d g xn yn hg
  obtain ⟨f0, hf0, hbes⟩ := hb d List.mem_cons_self
  have : f0 = g := by rw [hg.field] at hf0; exact (Option.some.inj hf0).symm
  subst this
  obtain ⟨g'', hg'', hrel⟩ := format_beside cfg 0 0 d d f0 f0 g' hbes hg'
  have : g'' = g' := by rw [hg'] at hg''; exact (Except.ok.inj hg'').symm
  subst this
  obtain ⟨_, _, _, _, _, _, _, _, _, _, _, _, _, _, _, _, _, _, _, _, _, _, _, _, hsize, hpos, _, _⟩ := formatField_ok cfg 0 d f0 g'' hg'
  obtain ⟨file, hfile⟩ := create_exists cfg g'' hrel (by rw [hsize, hpos]; rw [List.length_cons] at hcount; omega)
  have hinv := inv_first cfg ha d f0 gs g'' file hc hg' hfile n1 (formatted_has_geom cfg _ d f0 g'' hg' n2 n3)
  obtain ⟨file', e⟩ := writeFrom_exists_some cfg ha d f0 cs [d] file hinv rfl hg.field (fun c hc => hfit c (List.mem_cons_of_mem _ hc))
    (fun c hc => hb c (List.mem_cons_of_mem _ hc)) (by rw [List.length_cons] at hcount; simp only [List.length_singleton]; omega)
  refine ⟨file', ?_⟩
  unfold writeFrom preformat
  rw [if_pos ha, hc]
  simp only
  rw [hg']
  simp only [writeColl]
  rw [hfile]
  exact e

/-! ## The format -/

theorem formatsOf_ok (l : List Src) (h : .netcdf none ∉ l) : ∃ fs, formatsOf l = .ok fs ∧ ∀ f, f ∈ fs ↔ ∃ s ∈ l, Tells s f := by
  induction l with
  | nil => exact ⟨[], rfl, by simp⟩
  | cons s l ih =>
    obtain ⟨fs, e, hm⟩ := ih (fun hh => h (List.mem_cons_of_mem _ hh))
    have hcons : ∀ gs, (s = .netcdf (some gs) ∨ s = .other (some gs)) → ∀ f, f ∈ gs ++ fs ↔ ∃ t ∈ s :: l, Tells t f := by
      intro gs hs f
      rw [List.mem_append, hm]
      constructor
      · rintro (hf | ⟨t, ht, htf⟩)
        · exact ⟨s, List.mem_cons_self, gs, hs, hf⟩
        · exact ⟨t, List.mem_cons_of_mem _ ht, htf⟩
      · rintro ⟨t, ht, htf⟩
        rcases List.mem_cons.1 ht with rfl | ht
        · obtain ⟨gs', hs', hf⟩ := htf
          rcases hs with rfl | rfl <;> rcases hs' with e | e <;> simp at e <;> subst e <;> exact Or.inl hf
        · exact Or.inr ⟨t, ht, htf⟩
    have hskip : (∀ f, ¬ Tells s f) → ∀ f, f ∈ fs ↔ ∃ t ∈ s :: l, Tells t f := by
      intro hn f
      rw [hm]
      constructor
      · rintro ⟨t, ht, htf⟩; exact ⟨t, List.mem_cons_of_mem _ ht, htf⟩
      · rintro ⟨t, ht, htf⟩
        rcases List.mem_cons.1 ht with rfl | ht
        · exact absurd htf (hn f)
        · exact ⟨t, ht, htf⟩
    match s, h, hcons, hskip with
    | .field, _, _, hskip => exact ⟨fs, e, hskip (by rintro f ⟨gs, h | h, _⟩ <;> simp at h)⟩
    | .netcdf none, h, _, _ => exact absurd List.mem_cons_self h
    | .other none, _, _, hskip => exact ⟨fs, e, hskip (by rintro f ⟨gs, h | h, _⟩ <;> simp at h)⟩
    | .netcdf (some gs), _, hcons, _ => exact ⟨gs ++ fs, by simp only [formatsOf, e], hcons gs (Or.inl rfl)⟩
    | .other (some gs), _, hcons, _ => exact ⟨gs ++ fs, by simp only [formatsOf, e], hcons gs (Or.inr rfl)⟩

end Ocgis.Proofs.AggNc
