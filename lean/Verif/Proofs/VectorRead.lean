import Verif.Spec.VectorRead
import Verif.Props.GeomCabinet
import Verif.Props.SourceRead
import Verif.Proofs.Records

/-! Lemmas about fields of vector files. -/

namespace Ocgis.VectorRead
open Ocgis Ocgis.Records Ocgis.Cabinet Ocgis.Spec Ocgis.SourceRead Ocgis.Props

theorem featuresAt_map {G β : Type} (src : Source G) (d : β) (g : Feature G → β) (zs : List Int)
    (h : ∀ z ∈ zs, 0 ≤ z ∧ z < (src.features.length : Int)) :
    (featuresAt src zs).map g = zs.map fun z => ((src.features[z.toNat]?).map g).getD d := by
  unfold featuresAt
  induction zs with
  | nil => rfl
  | cons z zs ih =>
    have hz := h z List.mem_cons_self
    have hlt : z.toNat < src.features.length := by omega
    rw [List.filterMap_cons, List.getElem?_eq_getElem hlt]
    simp only [List.map_cons, List.getElem?_eq_getElem hlt, Option.map_some, Option.getD_some]
    rw [ih (fun y hy => h y (List.mem_cons_of_mem _ hy))]

theorem featuresAt_length {G : Type} (src : Source G) (zs : List Int) (h : ∀ z ∈ zs, 0 ≤ z ∧ z < (src.features.length : Int)) :
    (featuresAt src zs).length = zs.length := by
  have := congrArg List.length (featuresAt_map src () (fun _ => ()) zs h)
  simpa using this

theorem featuresAt_mem {G : Type} (src : Source G) (zs : List Int) (f : Feature G) (h : f ∈ featuresAt src zs) : f ∈ src.features := by
  obtain ⟨z, -, hz⟩ := List.mem_filterMap.1 h
  exact List.mem_of_getElem? hz

/-- The rows that are read. -/
theorem rows_read {G : Type} (src : Source G) (hg : GoodFile src) (d : Dim) (h : RefersTo d src.features.length) :
    ∃ rs, readRows src d = .ok rs ∧ rs.length = (featuresAt src (sources d)).length ∧
      ∀ (i : Nat) f r, (featuresAt src (sources d))[i]? = some f → rs[i]? = some r → RecordOf "UGID" f r := by
  have hne : sources d ≠ [] := by
    have h1 := sources_length d h.aligned h.src
    have h2 := h.pos
    intro he
    rw [he, List.length_nil] at h1
    omega
  have hfne : featuresAt src (sources d) ≠ [] := by
    intro he
    have := featuresAt_length src _ h.within
    rw [he] at this
    exact hne (List.length_eq_zero_iff.1 this.symm)
  have key : ∀ idx : RawIndex, FileIndex src idx → pick idx src.features = .ok (featuresAt src (sources d)) →
      ∃ rs, (iterGeoms src { slc := some idx }).map Prod.snd = .ok rs ∧ rs.length = (featuresAt src (sources d)).length ∧
      ∀ (i : Nat) f r, (featuresAt src (sources d))[i]? = some f → rs[i]? = some r → RecordOf "UGID" f r := by
    intro idx hidx hp
    obtain ⟨w, hw, hy⟩ := Props.C73_slice_partial src { slc := some idx } ⟨hg.good.nodup, hg.good.names, hg.good.ints, hg.good.exists_⟩
      idx rfl ⟨rfl, rfl⟩ hidx
    rw [hp] at hw
    injection hw with hw
    subst hw
    obtain ⟨rs, h1, h2, h3⟩ := hy.2 hfne
    exact ⟨rs, by rw [h1]; rfl, h2, h3⟩
  unfold readRows
  cases hsrc : d.srcIdx with
  | none => exact absurd hsrc h.src
  | some s =>
    cases s with
    | fancy xs =>
      have hsd : sources d = xs := by unfold sources; rw [hsrc]
      simp only
      refine key _ ⟨by rw [← hsd]; exact h.within, ?_⟩ ?_
      · rcases increasing_shape _ hne h.increasing with hj | hr
        · exact .inl ⟨hg.plain, hg.numbered, by rw [← hsd]; exact hj⟩
        · exact .inr (by rw [← hsd]; exact hr)
      · simp only [pick]
        rw [takeInts_ok _ _ (by rw [← hsd]; exact h.within), hsd]
        rfl
    | bounds a b =>
      have hsd : sources d = intRange a b := by unfold sources; rw [hsrc]
      have hab : a < b := by
        apply Classical.byContradiction
        intro hc
        exact hne (by rw [hsd, intRange_empty (by omega)])
      have ha := h.within a (by rw [hsd]; exact mem_intRange.2 ⟨by omega, hab⟩)
      have hb := h.within (b - 1) (by rw [hsd]; exact mem_intRange.2 ⟨by omega, by omega⟩)
      simp only
      refine key _ ⟨a, rfl, ha.1, fun c hc => ?_⟩ ?_
      · injection hc with hc; omega
      · simp only [pick]
        rw [PySlice.get_inside src.features a b ha.1 (by omega) (by omega),
          ← filterMap_range_slice src.features a b ha.1 (by omega), hsd]
        rfl

theorem record_lookup {G : Type} (src : Source G) (hg : GoodFile src) (f : Feature G) (hf : f ∈ src.features) (r : Rec G)
    (hr : RecordOf "UGID" f r) (k : String) (hk : k ∈ src.fields.map Prod.fst) : r.props.lookup k = f.props.lookup k := by
  have hfn : (f.props.map Prod.fst).Nodup := by rw [hg.good.names f hf]; exact hg.good.nodup
  have hkf : k ∈ f.props.map Prod.fst := by rw [hg.good.names f hf]; exact hk
  obtain ⟨⟨k', x⟩, hx, rfl⟩ := List.mem_map.1 hkf
  have h1 : f.props.lookup k' = some x := (mem_lookup _ hfn _ _).2 hx
  simp only at h1 ⊢
  rw [h1, mem_lookup _ hr.once]
  by_cases hu : k' = "UGID"
  · subst hu
    obtain ⟨i, rfl⟩ := hg.good.ints f hf x hx
    rw [hr.id]
    unfold idOf
    rw [h1]
  · exact (hr.props k' x hu).2 hx

theorem store_fits {G : Type} (t u : Ty) (x : Val) (hs : SameType t u) (hx : FitsOrNull u x) :
    store (G := G) t x = .ok (shownValue t x, match t with | .int => decide (x = .null) | _ => false) := by
  cases t <;> cases u <;> cases x <;> first | exact absurd hs id | exact absurd hx id | rfl

theorem cell_good {G : Type} (src : Source G) (hg : GoodFile src) (v : FVar G) (hv : OfFile src v) (f : Feature G) (hf : f ∈ src.features)
    (r : Rec G) (hr : RecordOf "UGID" f r) : cellAt v r = .ok (shown v f, missing v f) := by
  rcases hv with ⟨hk, hn⟩ | ⟨t, u, hk, hm, hs⟩
  · unfold cellAt shown missing
    rw [hk, hn, hr.geom]
    rfl
  · have hkn : v.name ∈ src.fields.map Prod.fst := List.mem_map.2 ⟨_, hm, rfl⟩
    have hl := record_lookup src hg f hf r hr v.name hkn
    have hkf : v.name ∈ f.props.map Prod.fst := by rw [hg.good.names f hf]; exact hkn
    obtain ⟨⟨k', x⟩, hx, he⟩ := List.mem_map.1 hkf
    simp only at he
    subst he
    have hfn : (f.props.map Prod.fst).Nodup := by rw [hg.good.names f hf]; exact hg.good.nodup
    have h1 : f.props.lookup v.name = some x := (mem_lookup _ hfn _ _).2 hx
    unfold cellAt shown missing
    rw [hk]
    simp only
    rw [hl, h1]
    simp only [Option.getD_some]
    rw [store_fits t u x hs (hg.fits f hf _ x hx u hm)]
    cases t <;> rfl

/-- The column that is read. -/
theorem column_good {G : Type} (src : Source G) (hg : GoodFile src) (v : FVar G) (hv : OfFile src v) (zs : List Int) (rs : List (Rec G))
    (hlen : rs.length = (featuresAt src zs).length)
    (hrs : ∀ (i : Nat) f r, (featuresAt src zs)[i]? = some f → rs[i]? = some r → RecordOf "UGID" f r) :
    column (featuresAt src zs).length rs v = .ok ((featuresAt src zs).map fun f => (shown v f, missing v f)) := by
  unfold column
  rw [if_neg (by omega)]
  have : rs.mapM (cellAt v) = .ok ((featuresAt src zs).map fun f => (shown v f, missing v f)) := by
    rw [resMapM_ok_iff]
    refine ⟨by simpa using hlen, ?_⟩
    intro i r b hr hb
    rw [List.getElem?_map] at hb
    cases hf : (featuresAt src zs)[i]? with
    | none => rw [hf] at hb; cases hb
    | some f =>
      rw [hf] at hb
      simp only [Option.map_some, Option.some.injEq] at hb
      subst hb
      exact cell_good src hg v hv f (featuresAt_mem src zs f (List.mem_of_getElem? hf)) r (hrs i f r hf hr)
  rw [this, hlen]
  simp

/-- The field is unread, or holds what the file has at the positions. -/
structure VInStep {G : Type} (src : Source G) (base : List (FVar G)) (zs : List Int) (f : VField G) : Prop where
  refers : RefersTo f.dim src.features.length
  srcs : sources f.dim = zs
  same : f.vars.map (fun v => (v.name, v.kind)) = base.map fun v => (v.name, v.kind)
  names : (base.map FVar.name).Nodup
  ofFile : ∀ v ∈ base, OfFile src v
  state : (∀ v ∈ f.vars, v.value = none ∧ v.mask = none ∧ v.initialized = false) ∨
    (∀ v ∈ f.vars, v.value = some ((featuresAt src zs).map (shown v)) ∧ Masks v.mask ((featuresAt src zs).map (missing v)))

theorem shown_congr {G : Type} (v w : FVar G) (h : (v.name, v.kind) = (w.name, w.kind)) : shown v = shown w ∧ missing v = missing w := by
  injection h with h1 h2
  constructor <;> funext f
  · unfold shown; rw [h1, h2]
  · unfold missing; rw [h1, h2]

theorem ofFile_congr {G : Type} (src : Source G) (v w : FVar G) (h : (v.name, v.kind) = (w.name, w.kind)) (hw : OfFile src w) :
    OfFile src v := by
  injection h with h1 h2
  unfold OfFile at *
  rw [h1, h2]
  exact hw

theorem inStep_names {G : Type} {src : Source G} {base : List (FVar G)} {zs : List Int} {f : VField G} (h : VInStep src base zs f) :
    f.vars.map FVar.name = base.map FVar.name := by
  have := congrArg (List.map Prod.fst) h.same
  simpa [List.map_map, Function.comp_def] using this

theorem inStep_ofFile {G : Type} {src : Source G} {base : List (FVar G)} {zs : List Int} {f : VField G} (h : VInStep src base zs f)
    (v : FVar G) (hv : v ∈ f.vars) : OfFile src v := by
  have : (v.name, v.kind) ∈ base.map fun v => (v.name, v.kind) := by rw [← h.same]; exact List.mem_map.2 ⟨v, hv, rfl⟩
  obtain ⟨w, hw, he⟩ := List.mem_map.1 this
  exact ofFile_congr src v w he.symm (h.ofFile w hw)

theorem find_ok {G : Type} (f : VField G) (k : String) (hk : k ∈ f.vars.map FVar.name) :
    ∃ v, find k f = .ok v ∧ v ∈ f.vars ∧ v.name = k := by
  unfold find
  cases hf : f.vars.find? fun v => decide (v.name = k) with
  | some v => exact ⟨v, rfl, List.mem_of_find?_eq_some hf, by simpa using List.find?_some hf⟩
  | none =>
    obtain ⟨v, hv, hn⟩ := List.mem_map.1 hk
    have := List.find?_eq_none.1 hf v hv
    simp [hn] at this

/-- With unique names, there is one variable of a name. -/
theorem find_unique {G : Type} (f : VField G) (hn : (f.vars.map FVar.name).Nodup) (v : FVar G) (hv : v ∈ f.vars) : find v.name f = .ok v := by
  obtain ⟨w, h1, h2, h3⟩ := find_ok f v.name (List.mem_map.2 ⟨v, hv, rfl⟩)
  rw [h1]
  congr 1
  have inj : ∀ (l : List (FVar G)), (l.map FVar.name).Nodup → ∀ a ∈ l, ∀ b ∈ l, a.name = b.name → a = b := by
    intro l
    induction l with
    | nil => intro _ a ha; cases ha
    | cons x l ih =>
      intro hl a ha b hb hab
      rw [List.map_cons, List.nodup_cons] at hl
      rcases List.mem_cons.1 ha with ha' | ha' <;> rcases List.mem_cons.1 hb with hb' | hb'
      · rw [ha', hb']
      · exact absurd (List.mem_map.2 ⟨b, hb', by rw [← hab, ha']⟩) hl.1
      · exact absurd (List.mem_map.2 ⟨a, ha', by rw [hab, hb']⟩) hl.1
      · exact ih hl.2 a ha' b hb' hab
  exact inj _ hn w h2 v hv h3

theorem update_names {G : Type} (k : String) (g : FVar G → FVar G) (hg : ∀ v, (g v).name = v.name ∧ (g v).kind = v.kind) (f : VField G) :
    (update k g f).vars.map (fun v => (v.name, v.kind)) = f.vars.map fun v => (v.name, v.kind) := by
  unfold update
  simp only [List.map_map]
  apply List.map_congr_left
  intro v _
  simp only [Function.comp_apply]
  split
  · rw [(hg v).1, (hg v).2]
  · rfl

/-- Reading from an unread field. -/
theorem inStep_read {G : Type} (src : Source G) (hg : GoodFile src) (base : List (FVar G)) (zs : List Int) (f : VField G) (k : String)
    (h : VInStep src base zs f) (hu : ∀ v ∈ f.vars, v.value = none ∧ v.mask = none ∧ v.initialized = false) :
    ∃ f', read src k f = .ok f' ∧ VInStep src base zs f' ∧
      ∀ v ∈ f'.vars, v.value = some ((featuresAt src zs).map (shown v)) ∧ Masks v.mask ((featuresAt src zs).map (missing v)) := by
  obtain ⟨rs, hr1, hr2, hr3⟩ := rows_read src hg f.dim h.refers
  rw [h.srcs] at hr2 hr3
  have hlen : f.dim.len.toNat = (featuresAt src zs).length := by
    rw [featuresAt_length src zs (by rw [← h.srcs]; exact h.refers.within), ← h.srcs]
    have := sources_length f.dim h.refers.aligned h.refers.src
    have := h.refers.pos
    omega
  have hcols : getColumns src f = .ok (f.vars.map fun v => (featuresAt src zs).map fun x => (shown v x, missing v x)) := by
    unfold getColumns
    rw [hr1]
    simp only
    rw [resMapM_ok_iff]
    refine ⟨by simp, ?_⟩
    intro i v b hv hb
    rw [List.getElem?_map, hv] at hb
    simp only [Option.map_some, Option.some.injEq] at hb
    subst hb
    rw [hlen]
    exact column_good src hg v (inStep_ofFile h v (List.mem_of_getElem? hv)) zs rs hr2 hr3
  unfold read initValues
  rw [hcols]
  simp only
  generalize hm : anyMasked (f.vars.map fun v => (featuresAt src zs).map fun x => (shown v x, missing v x)) = m
  have hz : f.vars.zipWith (install m) (f.vars.map fun v => (featuresAt src zs).map fun x => (shown v x, missing v x)) =
      f.vars.map fun v => install m v ((featuresAt src zs).map fun x => (shown v x, missing v x)) := by
    rw [List.zipWith_map_right, List.zipWith_self]
  rw [hz]
  have hall : ∀ v ∈ (update k (fun v => { v with initialized := true })
      { f with vars := f.vars.map fun v => install m v ((featuresAt src zs).map fun x => (shown v x, missing v x)) }).vars,
      v.value = some ((featuresAt src zs).map (shown v)) ∧ Masks v.mask ((featuresAt src zs).map (missing v)) := by
    intro v hv
    unfold update at hv
    simp only [List.mem_map] at hv
    obtain ⟨w, ⟨u, hu', rfl⟩, rfl⟩ := hv
    have hbase : ∀ x : FVar G, x.value = (install m u ((featuresAt src zs).map fun x => (shown u x, missing u x))).value →
        x.mask = (install m u ((featuresAt src zs).map fun x => (shown u x, missing u x))).mask → (x.name, x.kind) = (u.name, u.kind) →
        x.value = some ((featuresAt src zs).map (shown x)) ∧ Masks x.mask ((featuresAt src zs).map (missing x)) := by
      intro x h1 h2 h3
      obtain ⟨e1, e2⟩ := shown_congr x u h3
      rw [h1, h2, e1, e2]
      unfold install
      simp only [List.map_map, Function.comp_def]
      refine ⟨trivial, ?_⟩
      cases m with
      | true => exact .inl rfl
      | false =>
        refine .inr ⟨by simpa using (hu u hu').2.1, ?_⟩
        intro ht
        obtain ⟨y, hy, hy'⟩ := List.mem_map.1 ht
        have : anyMasked (f.vars.map fun v => (featuresAt src zs).map fun x => (shown v x, missing v x)) = true := by
          unfold anyMasked
          rw [List.any_eq_true]
          refine ⟨_, List.mem_map.2 ⟨u, hu', rfl⟩, ?_⟩
          rw [List.any_eq_true]
          exact ⟨_, List.mem_map.2 ⟨y, hy, rfl⟩, hy'⟩
        rw [hm] at this
        cases this
    split
    · exact hbase _ rfl rfl rfl
    · exact hbase _ rfl rfl rfl
  refine ⟨_, rfl, ⟨h.refers, h.srcs, ?_, h.names, h.ofFile, .inr hall⟩, hall⟩
  rw [update_names k (fun v => { v with initialized := true }) (fun v => ⟨rfl, rfl⟩), ← h.same]
  simp only [List.map_map]
  rfl

theorem inStep_getValue {G : Type} (src : Source G) (hg : GoodFile src) (base : List (FVar G)) (zs : List Int) (f : VField G)
    (v : FVar G) (hv : v ∈ base) (h : VInStep src base zs f) :
    ∃ f', getValue src v.name f = .ok (f', (featuresAt src zs).map (shown v)) ∧ VInStep src base zs f' := by
  have key : ∀ f' : VField G, VInStep src base zs f' →
      ∃ w, find v.name f' = .ok w ∧ w ∈ f'.vars ∧ shown w = shown v ∧ missing w = missing v := by
    intro f' h'
    have : (v.name, v.kind) ∈ f'.vars.map fun v => (v.name, v.kind) := by rw [h'.same]; exact List.mem_map.2 ⟨v, hv, rfl⟩
    obtain ⟨w, hw, he⟩ := List.mem_map.1 this
    have hn : w.name = v.name := by injection he
    have hnd : (f'.vars.map FVar.name).Nodup := by rw [inStep_names h']; exact h'.names
    refine ⟨w, by rw [← hn]; exact find_unique f' hnd w hw, hw, ?_⟩
    exact shown_congr w v he
  obtain ⟨w, hw, hwm, hs, -⟩ := key f h
  unfold getValue
  rw [hw]
  simp only
  rcases h.state with hu | hl
  · obtain ⟨h1, -, h3⟩ := hu w hwm
    rw [h1, h3]
    simp only [Bool.false_eq_true, if_false]
    obtain ⟨f', hr, hin, hall⟩ := inStep_read src hg base zs f v.name h hu
    rw [hr]
    simp only
    obtain ⟨w', hw', hwm', hs', -⟩ := key f' hin
    rw [hw']
    simp only
    rw [(hall w' hwm').1, hs']
    exact ⟨f', rfl, hin⟩
  · rw [(hl w hwm).1, hs]
    exact ⟨f, rfl, h⟩

theorem inStep_getMask {G : Type} (src : Source G) (hg : GoodFile src) (base : List (FVar G)) (zs : List Int) (f : VField G)
    (v : FVar G) (hv : v ∈ base) (h : VInStep src base zs f) :
    ∃ f' m, getMask src v.name f = .ok (f', m) ∧ Masks m ((featuresAt src zs).map (missing v)) ∧ VInStep src base zs f' := by
  have key : ∀ f' : VField G, VInStep src base zs f' →
      ∃ w, find v.name f' = .ok w ∧ w ∈ f'.vars ∧ shown w = shown v ∧ missing w = missing v := by
    intro f' h'
    have : (v.name, v.kind) ∈ f'.vars.map fun v => (v.name, v.kind) := by rw [h'.same]; exact List.mem_map.2 ⟨v, hv, rfl⟩
    obtain ⟨w, hw, he⟩ := List.mem_map.1 this
    have hn : w.name = v.name := by injection he
    have hnd : (f'.vars.map FVar.name).Nodup := by rw [inStep_names h']; exact h'.names
    refine ⟨w, by rw [← hn]; exact find_unique f' hnd w hw, hw, ?_⟩
    exact shown_congr w v he
  obtain ⟨w, hw, hwm, -, hs⟩ := key f h
  unfold getMask
  rw [hw]
  simp only
  rcases h.state with hu | hl
  · obtain ⟨h1, -, h3⟩ := hu w hwm
    rw [h1, h3]
    simp only [Option.isSome_none, Bool.or_self, Bool.false_eq_true, if_false]
    obtain ⟨f', hr, hin, hall⟩ := inStep_read src hg base zs f v.name h hu
    rw [hr]
    simp only
    obtain ⟨w', hw', hwm', -, hs'⟩ := key f' hin
    rw [hw']
    simp only
    exact ⟨f', _, rfl, by rw [← hs']; exact (hall w' hwm').2, hin⟩
  · obtain ⟨h1, h2⟩ := hl w hwm
    rw [h1]
    simp only [Option.isSome_some, Bool.or_true, if_true]
    exact ⟨f, _, rfl, by rw [← hs]; exact h2, h⟩

theorem takeAt_pickIndex {α : Type} (s : Index) (xs : List α) : takeAt s xs = pickIndex s xs := by
  cases s <;> rfl

/-- Slicing keeps in step. -/
theorem inStep_slice {G : Type} (src : Source G) (base : List (FVar G)) (zs : List Int) (f : VField G)
    (idx : RawIndex) (h : VInStep src base zs f) (ho : Orderly zs.length idx) :
    ∃ f' ys, slice idx f = .ok f' ∧ pick idx zs = .ok ys ∧ ys.length = (axisKept idx zs.length).length ∧ VInStep src base ys f' := by
  have hlen : f.dim.len.toNat = zs.length := by
    rw [← h.srcs]
    have := sources_length f.dim h.refers.aligned h.refers.src
    have := h.refers.pos
    omega
  obtain ⟨r, hr, -, -, -, hrest⟩ := slice_dim f.dim idx h.refers.aligned h.refers.pos (by rw [hlen]; exact ho)
  obtain ⟨hrefers, hsrcs⟩ := hrest _ h.refers
  rw [hlen, h.srcs] at hsrcs
  have hpick := pick_axis (0 : Int) idx zs ho
  rw [← hsrcs] at hpick
  obtain ⟨s, hs, -⟩ := supported_format zs idx (orderly_supported _ _ ho)
  have htake : ∀ {β : Type} (g : Int → β), takeAt s (zs.map g) = .ok ((sources r).map g) := by
    intro β g
    obtain ⟨s', hs', hp⟩ := supported_format (zs.map g) idx (by rw [List.length_map]; exact orderly_supported _ _ ho)
    rw [hs] at hs'
    injection hs' with hs'
    subst hs'
    rw [takeAt_pickIndex, hp]
    exact pick_map g idx zs _ hpick
  have hw : ∀ z ∈ zs, 0 ≤ z ∧ z < (src.features.length : Int) := by rw [← h.srcs]; exact h.refers.within
  have hfeat : ∀ {β : Type} (d : β) (g : Feature G → β), takeAt s ((featuresAt src zs).map g) = .ok ((featuresAt src (sources r)).map g) := by
    intro β d g
    rw [featuresAt_map src d g zs hw, featuresAt_map src d g _ hrefers.within]
    exact htake _
  have hvar : ∀ v ∈ f.vars, ∃ w, sliceVar s v = .ok w ∧ (w.name, w.kind) = (v.name, v.kind) ∧
      ((v.value = none ∧ v.mask = none ∧ v.initialized = false) → (w.value = none ∧ w.mask = none ∧ w.initialized = false)) ∧
      ((v.value = some ((featuresAt src zs).map (shown v)) ∧ Masks v.mask ((featuresAt src zs).map (missing v))) →
       (w.value = some ((featuresAt src (sources r)).map (shown w)) ∧ Masks w.mask ((featuresAt src (sources r)).map (missing w)))) := by
    intro v hv
    unfold sliceVar
    rcases h.state with hu | hl
    · obtain ⟨h1, h2, h3⟩ := hu v hv
      rw [h1, h2]
      refine ⟨_, rfl, rfl, fun _ => ⟨rfl, rfl, h3⟩, fun hc => ?_⟩
      simp at hc
    · obtain ⟨h1, h2⟩ := hl v hv
      rw [h1]
      simp only [takeOpt]
      rw [hfeat .fill (shown v)]
      simp only
      rcases h2 with h2 | ⟨h2, h3⟩
      · rw [h2]
        simp only
        rw [hfeat false (missing v)]
        simp only
        exact ⟨_, rfl, rfl, fun hc => by simp at hc, fun _ => ⟨rfl, .inl rfl⟩⟩
      · rw [h2]
        simp only
        refine ⟨_, rfl, rfl, fun hc => by simp at hc, fun _ => ⟨rfl, .inr ⟨rfl, ?_⟩⟩⟩
        intro ht
        apply h3
        have hsub := hfeat false (missing v)
        have : ∀ b ∈ (featuresAt src (sources r)).map (missing v), b ∈ (featuresAt src zs).map (missing v) := by
          intro b hb
          rw [featuresAt_map src false _ _ hrefers.within] at hb
          obtain ⟨z, hz, rfl⟩ := List.mem_map.1 hb
          rw [featuresAt_map src false _ _ hw]
          refine List.mem_map.2 ⟨z, ?_, rfl⟩
          rw [hsrcs] at hz
          obtain ⟨j, hj, rfl⟩ := List.mem_map.1 hz
          have hjl := (axisKept_spec zs.length (by have := h.refers.pos; omega) idx ho).2.1 j hj
          simp [List.getD_eq_getElem?_getD, List.getElem?_eq_getElem hjl]
        exact this true ht
  have hmap : ∀ l : List (FVar G), (∀ v ∈ l, v ∈ f.vars) → ∃ ws, l.mapM (sliceVar s) = .ok ws := by
    intro l
    induction l with
    | nil => intro _; exact ⟨[], rfl⟩
    | cons a l ih =>
      intro hl
      obtain ⟨w, hw1, -⟩ := hvar a (hl a List.mem_cons_self)
      obtain ⟨ws, hws⟩ := ih (fun x hx => hl x (List.mem_cons_of_mem _ hx))
      exact ⟨w :: ws, by rw [resMapM_cons, hw1, hws]⟩
  obtain ⟨ws, hws⟩ := hmap f.vars (fun _ h => h)
  have hws' := (resMapM_ok_iff _ _ _).1 hws
  have hback : ∀ w ∈ ws, ∃ v ∈ f.vars, sliceVar s v = .ok w := by
    intro w hw1
    obtain ⟨i, hi⟩ := List.getElem?_of_mem hw1
    have hil : i < f.vars.length := by rw [hws'.1]; exact (List.getElem?_eq_some_iff.1 hi).1
    exact ⟨_, List.getElem_mem hil, hws'.2 i _ w (List.getElem?_eq_getElem hil) hi⟩
  refine ⟨⟨r, ws⟩, sources r, ?_, hpick, ?_, hrefers, rfl, ?_, h.names, h.ofFile, ?_⟩
  · unfold slice
    rw [hr]
    simp only
    rw [hs]
    simp only
    rw [hws]
  · rw [hsrcs]; simp
  · rw [← h.same]
    simp only
    apply List.ext_getElem?
    intro i
    rw [List.getElem?_map, List.getElem?_map]
    cases hv : f.vars[i]? with
    | none =>
      have : ws[i]? = none := by
        rw [List.getElem?_eq_none_iff] at hv ⊢
        rw [← hws'.1]; exact hv
      rw [this]
    | some v =>
      have hil : i < ws.length := by rw [← hws'.1]; exact (List.getElem?_eq_some_iff.1 hv).1
      rw [List.getElem?_eq_getElem hil]
      obtain ⟨w, h1, h2, -⟩ := hvar v (List.mem_of_getElem? hv)
      have := hws'.2 i v _ hv (List.getElem?_eq_getElem hil)
      rw [h1] at this
      injection this with this
      rw [← this]
      simpa using h2
  · rcases h.state with hu | hl
    · left
      intro w hw1
      obtain ⟨v, hv, hvw⟩ := hback w hw1
      obtain ⟨w', h1, -, h3, -⟩ := hvar v hv
      rw [hvw] at h1
      injection h1 with h1
      subst h1
      exact h3 (hu v hv)
    · right
      intro w hw1
      obtain ⟨v, hv, hvw⟩ := hback w hw1
      obtain ⟨w', h1, -, -, h4⟩ := hvar v hv
      rw [hvw] at h1
      injection h1 with h1
      subst h1
      exact h4 (hl v hv)

/-- Histories of reading keep in step. -/
theorem inStep_run {G : Type} (src : Source G) (hg : GoodFile src) (base : List (FVar G)) (acts : List (Act G)) :
    ∀ (zs : List Int) (f : VField G), VInStep src base zs f → Reading (base.map FVar.name) zs.length acts →
    ∃ f', run src f acts = .ok f' ∧ VInStep src base (positionsAfter zs acts) f' := by
  induction acts with
  | nil => intro zs f h _; exact ⟨f, rfl, h⟩
  | cons a acts ih =>
    intro zs f h hr
    cases a with
    | slice idx =>
      obtain ⟨f', ys, h1, h2, h3, h4⟩ := inStep_slice src base zs f idx h hr.1
      have hrest := hr.2
      rw [← h3] at hrest
      obtain ⟨f'', h5, h6⟩ := ih ys f' h4 hrest
      refine ⟨f'', ?_, ?_⟩
      · simp only [run, step, h1, h5]
      · simp only [positionsAfter, h2]; exact h6
    | get k =>
      obtain ⟨v, hv, rfl⟩ := List.mem_map.1 hr.1
      obtain ⟨f', h1, h2⟩ := inStep_getValue src hg base zs f v hv h
      obtain ⟨f'', h5, h6⟩ := ih zs f' h2 hr.2
      refine ⟨f'', ?_, h6⟩
      simp only [run, step, h1, Except.map, h5]
    | getMask k =>
      obtain ⟨v, hv, rfl⟩ := List.mem_map.1 hr.1
      obtain ⟨f', m, h1, -, h2⟩ := inStep_getMask src hg base zs f v hv h
      obtain ⟨f'', h5, h6⟩ := ih zs f' h2 hr.2
      refine ⟨f'', ?_, h6⟩
      simp only [run, step, h1, Except.map, h5]
    | set k a => exact absurd hr id
    | setMask k m => exact absurd hr id
    | remove k => exact absurd hr id

theorem opened_inStep {G : Type} (src : Source G) (f : VField G) (h : Opened src f) : VInStep src f.vars (sources f.dim) f :=
  ⟨h.refers, rfl, rfl, h.names, h.ofFile, .inl h.unread⟩

/-- Changing one variable: what is found afterwards. -/
theorem find_update {G : Type} (f : VField G) (hn : (f.vars.map FVar.name).Nodup) (j k : String) (g : FVar G → FVar G)
    (hg : ∀ v, (g v).name = v.name) (v : FVar G) (hv : find k f = .ok v) :
    find k (update j g f) = .ok (if j = k then g v else v) := by
  obtain ⟨w, h1, h2, h3⟩ := find_ok f k (by
    unfold find at hv
    cases hf : f.vars.find? fun v => decide (v.name = k) with
    | none => rw [hf] at hv; cases hv
    | some x => exact List.mem_map.2 ⟨x, List.mem_of_find?_eq_some hf, by simpa using List.find?_some hf⟩)
  rw [hv] at h1
  injection h1 with h1
  subst h1
  have hn' : ((update j g f).vars.map FVar.name).Nodup := by
    have : (update j g f).vars.map FVar.name = f.vars.map FVar.name := by
      unfold update
      simp only [List.map_map]
      apply List.map_congr_left
      intro u _
      simp only [Function.comp_apply]
      split
      · exact hg u
      · rfl
    rw [this]; exact hn
  have hmem : (if v.name = j then g v else v) ∈ (update j g f).vars := List.mem_map.2 ⟨v, h2, rfl⟩
  have := find_unique _ hn' _ hmem
  have hname : (if v.name = j then g v else v).name = k := by
    split
    · rw [hg, h3]
    · exact h3
  rw [hname] at this
  rw [this]
  congr 1
  by_cases hjk : j = k
  · rw [if_pos hjk, if_pos (by rw [h3, hjk])]
  · rw [if_neg hjk, if_neg (by rw [h3]; exact fun h => hjk h.symm)]

/-- In a field that has been read, values and masks are what was set last. -/
theorem settled_run {G : Type} (src : Source G) (acts : List (Act G)) :
    ∀ (f : VField G), (f.vars.map FVar.name).Nodup → (∀ v ∈ f.vars, v.value.isSome) → Setting (f.vars.map FVar.name) acts →
    ∃ f', run src f acts = .ok f' ∧ f'.vars.map FVar.name = f.vars.map FVar.name ∧ (∀ v ∈ f'.vars, v.value.isSome) ∧
      ∀ k v a, find k f = .ok v → v.value = some a →
        ∃ w, find k f' = .ok w ∧ w.value = some (lastSet k a acts) ∧ w.mask = lastMask k v.mask acts := by
  induction acts with
  | nil => intro f _ hs _; exact ⟨f, rfl, rfl, hs, fun k v a hv ha => ⟨v, hv, ha, rfl⟩⟩
  | cons act acts ih =>
    intro f hn hs ha
    have hchange : ∀ (j : String) (g : FVar G → FVar G), (∀ v, (g v).name = v.name) → (∀ v, v.value.isSome → (g v).value.isSome) →
        ((update j g f).vars.map FVar.name = f.vars.map FVar.name) ∧ (∀ v ∈ (update j g f).vars, v.value.isSome) := by
      intro j g hg hv
      unfold update
      constructor
      · simp only [List.map_map]
        apply List.map_congr_left
        intro u _
        simp only [Function.comp_apply]
        split
        · exact hg u
        · rfl
      · intro v hm
        simp only [List.mem_map] at hm
        obtain ⟨u, hu, rfl⟩ := hm
        split
        · exact hv u (hs u hu)
        · exact hs u hu
    cases act with
    | slice idx => exact absurd ha id
    | remove k => exact absurd ha id
    | get k =>
      obtain ⟨v, hv, hm, hk⟩ := find_ok f k ha.1
      obtain ⟨f', h1, h2, h3, h4⟩ := ih f hn hs ha.2
      obtain ⟨a, hva⟩ := Option.isSome_iff_exists.1 (hs v hm)
      refine ⟨f', ?_, h2, h3, h4⟩
      have : getValue src k f = .ok (f, a) := by unfold getValue; rw [hv]; simp only [hva]
      simp only [run, step, this, Except.map, h1]
    | getMask k =>
      obtain ⟨v, hv, hm, hk⟩ := find_ok f k ha.1
      obtain ⟨f', h1, h2, h3, h4⟩ := ih f hn hs ha.2
      refine ⟨f', ?_, h2, h3, h4⟩
      have : getMask src k f = .ok (f, v.mask) := by unfold getMask; rw [hv]; simp only [hs v hm, Bool.or_true, if_true]
      simp only [run, step, this, Except.map, h1]
    | set k b =>
      obtain ⟨v, hv, hm, hk⟩ := find_ok f k ha.1
      obtain ⟨c1, c2⟩ := hchange k (fun v => { v with value := some b }) (fun _ => rfl) (fun _ _ => rfl)
      obtain ⟨f', h1, h2, h3, h4⟩ := ih (update k (fun v => { v with value := some b }) f) (by rw [c1]; exact hn) c2 (by rw [c1]; exact ha.2)
      refine ⟨f', ?_, h2.trans c1, h3, ?_⟩
      · simp only [run, step, hv, h1]
      · intro k' v' a hv' ha'
        have hf := find_update f hn k k' (fun v => { v with value := some b }) (fun _ => rfl) v' hv'
        by_cases hkk : k = k'
        · rw [if_pos hkk] at hf
          obtain ⟨w, e1, e2, e3⟩ := h4 k' _ b hf rfl
          refine ⟨w, e1, ?_, ?_⟩
          · simp only [lastSet, if_pos hkk]; exact e2
          · simp only [lastMask]; exact e3
        · rw [if_neg hkk] at hf
          obtain ⟨w, e1, e2, e3⟩ := h4 k' _ a hf ha'
          refine ⟨w, e1, ?_, ?_⟩
          · simp only [lastSet, if_neg hkk]; exact e2
          · simp only [lastMask]; exact e3
    | setMask k b =>
      obtain ⟨v, hv, hm, hk⟩ := find_ok f k ha.1
      obtain ⟨c1, c2⟩ := hchange k (fun v => { v with mask := some b }) (fun _ => rfl) (fun _ h => h)
      obtain ⟨f', h1, h2, h3, h4⟩ := ih (update k (fun v => { v with mask := some b }) f) (by rw [c1]; exact hn) c2 (by rw [c1]; exact ha.2)
      refine ⟨f', ?_, h2.trans c1, h3, ?_⟩
      · simp only [run, step, hv, h1]
      · intro k' v' a hv' ha'
        have hf := find_update f hn k k' (fun v => { v with mask := some b }) (fun _ => rfl) v' hv'
        by_cases hkk : k = k'
        · rw [if_pos hkk] at hf
          obtain ⟨w, e1, e2, e3⟩ := h4 k' _ a hf ha'
          refine ⟨w, e1, ?_, ?_⟩
          · simp only [lastSet]; exact e2
          · simp only [lastMask, if_pos hkk]; exact e3
        · rw [if_neg hkk] at hf
          obtain ⟨w, e1, e2, e3⟩ := h4 k' _ a hf ha'
          refine ⟨w, e1, ?_, ?_⟩
          · simp only [lastSet]; exact e2
          · simp only [lastMask, if_neg hkk]; exact e3

end Ocgis.VectorRead
