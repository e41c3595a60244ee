import Verif.Proofs.AggNc
/-!
# C105: aggregated results in netCDF files
-/
namespace Ocgis.Props
open Ocgis.AggNc Ocgis.Spec Ocgis.Proofs.AggNc

/-- C105: for every sequence of collections, of any length and with any variables and properties: when an aggregated file is
written, the collections that are not empty are shown at the places 0, 1, …, in order.  At its place, each geometry has its
centroid, its properties, its identifier and its averages, all of them its own; no collection disturbs the place of another;
the places after the last collection hold nothing; the dimension has as many places as there are selection geometries.
Partial: geometries after one without data are not at their own number (`C105_gap_counterexample`). -/
theorem C105_places_partial {α : Type} (cfg : Cfg) (cs : List (Col α)) (file : File α) (ha : cfg.aggregate = true)
    (hfit : ∀ c ∈ cs, FitNames c) (h : writeAll cfg cs = .ok (some file)) :
    (∀ j c, (cs.filter fun c => !c.empty)[j]? = some c → ∃ f, c.fields.head? = some f ∧
      (∃ xn, f.x = some xn ∧ ShowsAt file xn j (.num c.cx)) ∧ (∃ yn, f.y = some yn ∧ ShowsAt file yn j (.num c.cy)) ∧
      (∀ p ∈ c.props, ShowsAt file p.key j p.cell) ∧
      (∀ v, IsKept f v → v.place = .geom → ShowsAt file v.name j v.cell)) ∧
    (∀ fv ∈ file.vars, fv.place = .geom → fv.cells.length = cfg.ngeom ∧
      ∀ j, (cs.filter fun c => !c.empty).length ≤ j → j < cfg.ngeom → fv.cells[j]? = some none) ∧
    file.gsize = cfg.ngeom ∧ (file.vars.map FVar.name).Nodup ∧ (cs.filter fun c => !c.empty).length ≤ cfg.ngeom := by
  have hfit' : ∀ c ∈ cs.filter (fun c => !c.empty), FitNames c := fun c hc => hfit c (List.mem_filter.1 hc).1
  obtain ⟨inv, _⟩ := writeFrom_inv cfg ha _ file hfit' h
  refine ⟨?_, ?_, inv.size, inv.nodup, inv.count⟩
  · intro j c hj
    obtain ⟨f, fs, f', hc, hf, hsh⟩ := inv.shown j c hj
    obtain ⟨n1, n2, n3⟩ := hfit' c (List.mem_of_getElem? hj) f (by rw [hc]; exact List.mem_cons_self)
    obtain ⟨⟨xn, ex, v, hv, h1, h2, h3⟩, ⟨yn, ey, w, hw, k1, k2, k3⟩, hp, hk⟩ := formatted_shows cfg j c f f' hf n2 n3
    have toShow : ∀ v ∈ f'.vars, v.place = .geom → ShowsAt file v.name j v.cell := fun v hv hg =>
      hsh v (by unfold written; rw [List.mem_filter]; exact ⟨hv, by rw [hg]; decide⟩) hg
    refine ⟨f, by rw [hc]; rfl, ⟨xn, ex, ?_⟩, ⟨yn, ey, ?_⟩, ?_, ?_⟩
    · have := toShow v hv h2; rwa [h1, h3] at this
    · have := toShow w hw k2; rwa [k1, k3] at this
    · intro p hpm
      obtain ⟨u, hu, u1, u2, u3⟩ := hp p hpm
      have := toShow u hu u2; rwa [u1, u3] at this
    · intro v hkv hg
      obtain ⟨u, hu, u1, u2, u3⟩ := hk v hkv
      have := toShow u hu (u2.trans hg); rwa [u1, u3] at this
  · intro fv hfv hg
    refine ⟨?_, fun j hj hjn => inv.later fv hfv hg j hj hjn⟩
    have := inv.len fv hfv
    rwa [if_pos hg] at this

/-- C105, variables without the dimension of the geometries, like time, are written by every collection; the file has those
of the last. -/
theorem C105_plain {α : Type} (cfg : Cfg) (cs : List (Col α)) (file : File α) (ha : cfg.aggregate = true)
    (hfit : ∀ c ∈ cs, FitNames c) (h : writeAll cfg cs = .ok (some file)) :
    ∃ c f, (cs.filter fun c => !c.empty).getLast? = some c ∧ c.fields.head? = some f ∧
      ∀ v, IsKept f v → v.place = .plain → ShowsPlain file v.name v.cell := by
  have hfit' : ∀ c ∈ cs.filter (fun c => !c.empty), FitNames c := fun c hc => hfit c (List.mem_filter.1 hc).1
  obtain ⟨inv, hne⟩ := writeFrom_inv cfg ha _ file hfit' h
  obtain ⟨c, hl⟩ : ∃ c, (cs.filter fun c => !c.empty).getLast? = some c := ⟨_, List.getLast?_eq_some_getLast hne⟩
  obtain ⟨f, fs, f', hc, hf, hsh⟩ := inv.plain c hl
  obtain ⟨n1, n2, n3⟩ := hfit' c (List.mem_of_getLast? hl) f (by rw [hc]; exact List.mem_cons_self)
  obtain ⟨-, -, -, hk⟩ := formatted_shows cfg _ c f f' hf n2 n3
  refine ⟨c, f, hl, by rw [hc]; rfl, ?_⟩
  intro v hkv hg
  obtain ⟨u, hu, u1, u2, u3⟩ := hk v hkv
  have := hsh u (by unfold written; rw [List.mem_filter]; exact ⟨hu, by rw [u2, hg]; decide⟩) (u2.trans hg)
  rwa [u1, u3] at this

/-- C105, the file as a whole: the attributes are those of the first field with the history continued and the feature type
of discrete geometries; the dimension has the name asked for; the identifier has the role of one; geometry variables are not in
the file; the coordinates are described as centroids and keep their other attributes. -/
theorem C105_file {α : Type} (cfg : Cfg) (cs : List (Col α)) (file : File α) (ha : cfg.aggregate = true)
    (hfit : ∀ c ∈ cs, FitNames c) (h : writeAll cfg cs = .ok (some file)) :
    ∃ c f, (cs.filter fun c => !c.empty).head? = some c ∧ c.fields.head? = some f ∧
      file.gname = cfg.geomDim.getD f.gname ∧
      file.attrs.lookup "history" = some (((f.attrs.lookup "history").getD "") ++ cfg.stamp) ∧
      file.attrs.lookup "featureType" = some "timeSeries" ∧
      (∀ k, k ≠ "history" → k ≠ "featureType" → file.attrs.lookup k = f.attrs.lookup k) ∧
      (∀ fv ∈ file.vars, fv.name = gidName → fv.attrs.lookup "cf_role" = some "timeseries_id") ∧
      (∀ fv ∈ file.vars, f.x = some fv.name → fv.attrs.lookup "long_name" = some "Centroid longitude" ∧
        ∃ v ∈ f.vars, v.name = fv.name ∧ ∀ k, k ≠ "long_name" → k ≠ "cf_role" → fv.attrs.lookup k = v.attrs.lookup k) ∧
      (∀ fv ∈ file.vars, f.y = some fv.name → fv.attrs.lookup "long_name" = some "Centroid latitude" ∧
        ∃ v ∈ f.vars, v.name = fv.name ∧ ∀ k, k ≠ "long_name" → k ≠ "cf_role" → fv.attrs.lookup k = v.attrs.lookup k) ∧
      (∀ fv ∈ file.vars, fv.place ≠ .shape) := by
  have hfit' : ∀ c ∈ cs.filter (fun c => !c.empty), FitNames c := fun c hc => hfit c (List.mem_filter.1 hc).1
  obtain ⟨inv, hne⟩ := writeFrom_inv cfg ha _ file hfit' h
  obtain ⟨c, hl⟩ : ∃ c, (cs.filter fun c => !c.empty).head? = some c := ⟨_, List.head?_eq_some_head hne⟩
  obtain ⟨f, fs, f', hc, hf, hname, hattrs, hrows⟩ := inv.first c hl
  obtain ⟨n1, n2, n3⟩ := hfit' c (List.mem_of_head? hl) f (by rw [hc]; exact List.mem_cons_self)
  obtain ⟨xn, yn, vx, vy, l1, l2, ex, ey, e1, hvx, hvxn, e2, hvy, hvyn, hne', xa, ya, l, exa, eya, el, ev, hnod, -⟩ :=
    formatField_ok cfg 0 c f f' hf
  have from' : ∀ fv ∈ file.vars, ∃ v ∈ l ++ c.props.map propVar, fv.name = v.name ∧ fv.attrs = (role v).attrs := by
    intro fv hfv
    obtain ⟨w, hw, h1, _, h3, _⟩ := (forall₂_mem hrows).2 fv hfv
    unfold written at hw
    have := (List.mem_filter.1 hw).1
    rw [ev, List.mem_map] at this
    obtain ⟨v, hv, rfl⟩ := this
    exact ⟨v, hv, by rw [h1, role_name], h3⟩
  have hnod' : ((l ++ c.props.map propVar).map Vr.name).Nodup := by
    have := hnod n1
    rwa [ev, role_names] at this
  have hattr : ∀ n vn, n ∈ f.vars → n.name = vn → attrsOf f.vars vn = n.attrs := by
    intro n vn hn e
    unfold attrsOf
    cases hfd : f.vars.find? (fun v => v.name == vn) with
    | none => exact absurd (by simpa using e) (List.find?_eq_none.1 hfd n hn)
    | some w =>
      have hw : w = n := eq_of_nodup_map Vr.name n1 (List.mem_of_find?_eq_some hfd) hn (by
        have := List.find?_some hfd
        have hw' : w.name = vn := by simpa using this
        rw [hw', e])
      rw [hw]
  have hvy' : vy ∈ f.vars := by rw [e1] at hvy; exact (List.mem_filter.1 hvy).1
  have hxl : coord xn c.cx xa "Centroid longitude" ∈ l ++ c.props.map propVar := List.mem_append_left _ (by
    rw [el, List.mem_filter]
    exact ⟨by simp, by simpa [coord] using fun e => n2 (by rw [ex, e])⟩)
  have hyl : coord yn c.cy ya "Centroid latitude" ∈ l ++ c.props.map propVar := List.mem_append_left _ (by
    rw [el, List.mem_filter]
    exact ⟨by simp, by simpa [coord] using fun e => n3 (by rw [ey, e])⟩)
  refine ⟨c, f, hl, by rw [hc]; rfl, hname, ?_, ?_, ?_, ?_, ?_, ?_, inv.shapes⟩
  · rw [hattrs, setAttr_lookup, if_neg (by decide), setAttr_lookup, if_pos rfl]
  · rw [hattrs, setAttr_lookup, if_pos rfl]
  · intro k h1 h2
    rw [hattrs, setAttr_lookup, if_neg h2, setAttr_lookup, if_neg h1]
  · intro fv hfv hg
    obtain ⟨v, hv, h1, h2⟩ := from' fv hfv
    rw [h2, role_attrs, if_pos ⟨by rw [← h1, hg], rfl⟩]
  · intro fv hfv hx
    obtain ⟨v, hv, h1, h2⟩ := from' fv hfv
    have hxn : xn = fv.name := by rw [ex] at hx; exact Option.some.inj hx
    have : v = coord xn c.cx xa "Centroid longitude" := eq_of_nodup_map Vr.name hnod' hv hxl (by rw [← h1, ← hxn]; rfl)
    subst this
    refine ⟨?_, vx, hvx, hvxn.trans hxn, ?_⟩
    · rw [h2, role_attrs, if_neg (by rintro ⟨_, h⟩; exact absurd h (by decide))]
      simp only [coord]
      rw [setAttr_lookup, if_pos rfl]
    · intro k k1 k2
      rw [h2, role_attrs, if_neg (fun e => k2 e.2)]
      simp only [coord]
      rw [setAttr_lookup, if_neg k1, exa, hattr vx xn hvx hvxn]
  · intro fv hfv hy
    obtain ⟨v, hv, h1, h2⟩ := from' fv hfv
    have hyn : yn = fv.name := by rw [ey] at hy; exact Option.some.inj hy
    have : v = coord yn c.cy ya "Centroid latitude" := eq_of_nodup_map Vr.name hnod' hv hyl (by rw [← h1, ← hyn]; rfl)
    subst this
    refine ⟨?_, vy, hvy', hvyn.trans hyn, ?_⟩
    · rw [h2, role_attrs, if_neg (by rintro ⟨_, h⟩; exact absurd h (by decide))]
      simp only [coord]
      rw [setAttr_lookup, if_pos rfl]
    · intro k k1 k2
      rw [h2, role_attrs, if_neg (fun e => k2 e.2)]
      simp only [coord]
      rw [setAttr_lookup, if_neg k1, eya, hattr vy yn hvy' hvyn]

/-- C105, the file is written: when the first collection can be formatted, all collections have the same variables and
properties of the same kinds, the texts have room, and there are no more collections than selection geometries. -/
theorem C105_written {α : Type} (cfg : Cfg) (cs : List (Col α)) (d : Col α) (g : Fld α) (xn yn : String) (ha : cfg.aggregate = true)
    (hfit : ∀ c ∈ cs, FitNames c) (hd : (cs.filter fun c => !c.empty).head? = some d) (hg : Formattable d g xn yn)
    (hb : ∀ c ∈ cs, c.empty = false → ∃ f, c.fields.head? = some f ∧ Beside c d f g)
    (hcount : (cs.filter fun c => !c.empty).length ≤ cfg.ngeom) : ∃ file, writeAll cfg cs = .ok (some file) := by
  unfold writeAll
  cases hl : cs.filter fun c => !c.empty with
  | nil => rw [hl] at hd; exact nomatch hd
  | cons e es =>
    rw [hl] at hd hcount
    obtain rfl : e = d := by simpa using hd
    have hin : ∀ c ∈ e :: es, c ∈ cs ∧ c.empty = false := by
      intro c hc
      rw [← hl, List.mem_filter] at hc
      exact ⟨hc.1, by simpa using hc.2⟩
    exact writeFrom_exists cfg ha e g es xn yn hg (fun c hc => hfit c (hin c hc).1) (fun c hc => hb c (hin c hc).1 (hin c hc).2) hcount

/-- C105, refused: a property named like a variable that is kept, or like a coordinate. -/
theorem C105_refused {α : Type} (cfg : Cfg) (i : Nat) (c : Col α) (f f' : Fld α) (p : Prop' α) (hp : p ∈ c.props)
    (hn : (f.vars.map Vr.name).Nodup) (hx : f.x ≠ some maskName) (hy : f.y ≠ some maskName)
    (hc : f.x = some p.key ∨ f.y = some p.key ∨ ∃ v, IsKept f v ∧ v.name = p.key) : formatField cfg i c f ≠ .ok f' := by
  intro h
  obtain ⟨l, ev, ⟨xn, ex, vx, hvx, nx, -⟩, ⟨yn, ey, vy, hvy, ny, -⟩, hk⟩ := formatted_base cfg i c f f' h hx hy
  obtain ⟨_, _, _, _, _, _, _, _, _, _, _, _, _, _, _, _, _, _, _, _, _, _, hnod, -⟩ := formatField_ok cfg i c f f' h
  have hnod' := hnod hn
  rw [ev, role_names, List.map_append, List.nodup_append] at hnod'
  have hin : ∃ v ∈ l, v.name = p.key := by
    rcases hc with hc | hc | ⟨v, hv, e⟩
    · exact ⟨vx, hvx, by rw [ex] at hc; rw [nx]; exact Option.some.inj hc⟩
    · exact ⟨vy, hvy, by rw [ey] at hc; rw [ny]; exact Option.some.inj hc⟩
    · exact ⟨v, hk v hv, e⟩
  obtain ⟨v, hv, e⟩ := hin
  exact hnod'.2.2 v.name (List.mem_map_of_mem hv) p.key (by
    rw [List.map_map]; exact List.mem_map.2 ⟨p, hp, rfl⟩) e

/-- C105, the format of the file: the option, if given; without operations the one of the environment; otherwise, when no
request dataset tells a format, the one of the environment, and else the only one they tell; an error when they differ, or
when a request for a netCDF file comes first that does not tell. -/
theorem C105_format (option : Option String) (ops : Option (List Src)) (env : String) :
    (∀ m, option = some m → fileFormat option ops env = .ok m) ∧
    (option = none → ops = none → fileFormat option ops env = .ok env) ∧
    (∀ l, option = none → ops = some l → .netcdf none ∉ l →
      ((∀ s ∈ l, ∀ f, ¬ Tells s f) → fileFormat option ops env = .ok env) ∧
      (∀ f, (∃ s ∈ l, Tells s f) → (∀ s ∈ l, ∀ g, Tells s g → g = f) → fileFormat option ops env = .ok f) ∧
      (∀ f g, (∃ s ∈ l, Tells s f) → (∃ s ∈ l, Tells s g) → f ≠ g → fileFormat option ops env = .error .valueError)) := by
  refine ⟨?_, ?_, ?_⟩
  · rintro m rfl; rfl
  · rintro rfl rfl; rfl
  · rintro l rfl rfl hl
    obtain ⟨fs, e, hm⟩ := formatsOf_ok l hl
    simp only [fileFormat, e]
    refine ⟨?_, ?_, ?_⟩
    · intro hn
      have : fs = [] := List.eq_nil_iff_forall_not_mem.2 fun f hf => by
        obtain ⟨s, hs, ht⟩ := (hm f).1 hf
        exact hn s hs f ht
      subst this
      rfl
    · intro f hf hall
      have hmem : f ∈ fs := (hm f).2 hf
      have hsub : ∀ g ∈ fs, g = f := fun g hg => by
        obtain ⟨s, hs, ht⟩ := (hm g).1 hg
        exact hall s hs g ht
      have hd : fs.eraseDups = [f] := by
        cases fs with
        | nil => exact nomatch hmem
        | cons a r =>
          have ha : a = f := hsub a List.mem_cons_self
          subst ha
          rw [List.eraseDups_cons]
          have : r.filter (fun b => !b == a) = [] := List.filter_eq_nil_iff.2 fun b hb => by
            rw [hsub b (List.mem_cons_of_mem _ hb)]; simp
          rw [this]; rfl
      rw [hd]; rfl
    · intro f g hf hg hne
      rw [if_pos]
      have h1 : f ∈ fs.eraseDups := List.mem_eraseDups.2 ((hm f).2 hf)
      have h2 : g ∈ fs.eraseDups := List.mem_eraseDups.2 ((hm g).2 hg)
      match hd : fs.eraseDups with
      | [] => rw [hd] at h1; exact nomatch h1
      | [a] =>
        rw [hd, List.mem_singleton] at h1 h2
        exact absurd (h1.trans h2.symm) hne
      | a :: b :: r => simp

/-! ## Cases -/

/-- C105, the format of the file: a netCDF request dataset that does not tell its format is an error, wherever it is in the list. -/
theorem C105_no_format (l : List Src) (env : String) (h : Src.netcdf none ∈ l) : fileFormat none (some l) env = .error .keyError := by
  have : formatsOf l = .error .keyError := by
    induction l with
    | nil => cases h
    | cons s l ih =>
      rcases List.mem_cons.1 h with rfl | hl
      · rfl
      · cases s with
        | field => exact ih hl
        | netcdf fs => cases fs with
          | none => rfl
          | some fs => simp only [formatsOf, ih hl]
        | other fs => cases fs with
          | none => exact ih hl
          | some fs => simp only [formatsOf, ih hl]
  simp only [fileFormat, this]

example : Src.netcdf none ∈ [Src.field, .netcdf (some ["NETCDF4"]), .netcdf none] := by decide


/-- The averages over one geometry, with a time axis and the identifier. -/
def avgField (v gid : Rat) : Fld Rat :=
  ⟨some "lon", some "lat", [⟨"lon", .plain, .num 0, none, some "lon_bnds", [("units", "degrees")]⟩, ⟨"lon_bnds", .plain, .num 0, none, none, []⟩,
    ⟨"lat", .plain, .num 0, none, none, []⟩, ⟨"time", .plain, .num 365, none, none, []⟩, ⟨"tas", .geom, .num v, none, none, []⟩,
    ⟨"geom", .shape, .num 0, none, none, []⟩, ⟨"GID", .geom, .num gid, none, none, []⟩], [], "ocgis_geom_union", 1, 0⟩

/-- The collection of one geometry with a name. -/
def avgCol (name : String) (width : Option Nat) (x y v gid : Rat) : Col Rat :=
  ⟨false, x, y, [⟨"Name", .text name, width⟩, ⟨"UGID", .num gid, none⟩], [avgField v gid]⟩

/-- An aggregation over three geometries. -/
def aggCfg : Cfg := ⟨true, 3, some "region", "\nocgis"⟩

example : ∃ file, writeAll aggCfg [avgCol "Boulder" none 1 2 10 5, avgCol "A" none 3 4 11 7] = .ok (some file) ∧
    file.gname = "region" ∧ file.vars.map (fun v => (v.name, v.cells)) =
      [("time", [some (.num 365)]), ("tas", [some (.num 10), some (.num 11), none]), ("GID", [some (.num 5), some (.num 7), none]),
        ("lon", [some (.num 1), some (.num 3), none]), ("lat", [some (.num 2), some (.num 4), none]),
        ("Name", [some (.text "Boulder"), some (.text "A"), none]), ("UGID", [some (.num 5), some (.num 7), none])] :=
  ⟨_, rfl, by decide +kernel⟩

example : Formattable (avgCol "Boulder" none 1 2 10 5) (avgField 10 5) "lon" "lat" ∧ FitNames (avgCol "Boulder" none 1 2 10 5) ∧
    Beside (avgCol "A" none 3 4 11 7) (avgCol "Boulder" none 1 2 10 5) (avgField 11 7) (avgField 10 5) := by
  refine ⟨⟨rfl, rfl, rfl, ⟨⟨"lon", .plain, .num 0, none, some "lon_bnds", [("units", "degrees")]⟩, by decide +kernel⟩, ⟨⟨"lat", .plain, .num 0, none, none, []⟩, by decide +kernel⟩, by decide,
    ⟨⟨"GID", .geom, .num 5, none, none, []⟩, ?_, rfl⟩, by decide +kernel, by decide +kernel⟩, ?_, ⟨rfl, rfl, ?_, ?_⟩⟩
  · unfold IsKept; decide +kernel
  · unfold FitNames; decide +kernel
  · simp only [avgField]; repeat (first | exact .nil | refine .cons (by decide +kernel) ?_)
  · simp only [avgCol]; repeat (first | exact .nil | refine .cons (by decide +kernel) ?_)

/-- C105 fails for geometries after one without data: a collection that is empty is not counted, so the second geometry of two
is at the first place, and the last place is empty. -/
theorem C105_gap_counterexample : ∃ file,
    writeAll ⟨true, 2, none, ""⟩ [{ avgCol "A" none 1 2 10 1 with empty := true }, avgCol "B" none 3 4 11 2] = .ok (some file) ∧
    ShowsAt file "Name" 0 (.text "B") ∧ ¬ ∃ v, ShowsAt file "Name" 1 v := by
  refine ⟨_, rfl, ?_, ?_⟩
  · refine ⟨⟨"Name", .geom, some 1, [some (.text "B"), none], []⟩, by decide +kernel, rfl, rfl, rfl⟩
  · rintro ⟨v, fv, hm, hn, hp, hc⟩
    have : ∀ fv ∈ ([⟨"time", .plain, none, [some (.num 365)], []⟩, ⟨"tas", .geom, none, [some (.num 11), none], []⟩,
        ⟨"GID", .geom, none, [some (.num 2), none], [("cf_role", "timeseries_id")]⟩,
        ⟨"lon", .geom, none, [some (.num 3), none], [("units", "degrees"), ("long_name", "Centroid longitude")]⟩,
        ⟨"lat", .geom, none, [some (.num 4), none], [("long_name", "Centroid latitude")]⟩,
        ⟨"Name", .geom, some 1, [some (.text "B"), none], []⟩, ⟨"UGID", .geom, none, [some (.num 2), none], []⟩] : List (FVar Rat)),
        fv.name = "Name" → fv.cells[1]? = some none := by decide +kernel
    have h2 := this fv hm hn
    rw [h2] at hc
    simp at hc

/-- C105 fails for names that are longer than the first: records given as dictionaries get the width of the first record's
text (`"A"`: 1), and the file has no room for the second. -/
theorem C105_longer_counterexample :
    writeAll ⟨true, 2, none, ""⟩ [avgCol "A" (some 1) 1 2 10 1, avgCol "Boulder" (some 1) 3 4 11 2] = .error .indexError := by
  decide +kernel

/-- C105 fails for fields that were not averaged: with `allow_empty` the aggregation is passed over (ops/engine.py:356), there is
no identifier, and writing fails after the coordinates were replaced. -/
theorem C105_allow_empty_counterexample :
    writeAll ⟨true, 1, none, ""⟩ [{ avgCol "A" none 1 2 10 1 with fields := [{ avgField 10 1 with vars := (avgField 10 1).vars.dropLast }] }] =
      .error .keyError := by decide +kernel

/-- C105 fails for properties named like a variable of the dataset. -/
theorem C105_name_counterexample :
    writeAll ⟨true, 1, none, ""⟩ [{ avgCol "A" none 1 2 10 1 with props := [⟨"tas", .num 3, none⟩] }] = .error .variableInCollection := by
  decide +kernel

end Ocgis.Props
