import Verif.Proofs.ShpProcess
/-!
# C114: Identifiers added to a shapefile
-/
namespace Ocgis.Props
open Spec Ocgis.ShpProcess Proofs.ShpProcess

/-! A small file for the examples: geometries are numbers, those below ten are valid, cleaning takes ten away. -/
private def okGeom (n : Nat) : Bool := decide (n < 10)
private def fix (n : Nat) : Nat := n - 10
private def digits (s : String) : Option Int := if s = "12" then some 12 else none
private def roads : Shp Nat where
  schema := [("NAME", "str"), ("UGID", "str"), ("CODE", "str")]
  features := [⟨3, [("NAME", .text "a"), ("UGID", .text "x"), ("CODE", .text "12")]⟩,
    ⟨14, [("NAME", .text "b"), ("UGID", .text "x"), ("CODE", .text "12")]⟩,
    ⟨5, [("NAME", .text "c"), ("UGID", .nothing), ("CODE", .text "north")]⟩]
private def disk : Disk Nat := fun p => if p = ("in", "roads.shp") then some roads else none

/-- Identifiers are counted: the output, a file other than the source, has the features of the source in their order with identifiers 1, 2, 3
and so on, the other properties and valid geometries as they were and the other geometries cleaned. No other file is changed. Missing: the
output must not be the source (`C114_same_never`). -/
theorem C114_process_partial {γ : Type} (parse : String → Option Int) (valid : γ → Bool) (clean : γ → γ) (d : Disk γ) (path : Path)
    (folder : String) (key name : Option String) (s : Shp γ) (hs : d path = some s) (hne : target path folder key ≠ path) :
    ∃ d' o, process parse valid clean d path folder key none name = (d', .ok (target path folder key)) ∧
      d' (target path folder key) = some o ∧ o.features.length = s.features.length ∧
      (∀ (i : Nat) f g, s.features[i]? = some f → o.features[i]? = some g →
        IdentifiedAs valid clean (identifierOf name) f g ((i + 1 : Nat) : Int)) ∧
      ∀ p, p ≠ target path folder key → d' p = d p := by
  obtain ⟨out, h1, h2, h3⟩ := loop_count parse valid clean (identifierOf name) s.features 1
  obtain ⟨d', e1, e2, e3⟩ := process_eq parse valid clean d path folder key none name s hs hne out _ h1
  refine ⟨d', _, e1, e2, h2, ?_, e3⟩
  intro i f g hf hg
  have := h3 i f g hf hg
  rwa [Nat.add_comm] at this

example : target ("in", "roads.shp") "out" none = ("out", "roads.shp") ∧ target ("in", "roads.shp") "in" (some "ids") = ("in", "ids.shp") ∧
    disk ("in", "roads.shp") = some roads := by decide +kernel

example : (process digits okGeom fix disk ("in", "roads.shp") "out" none none none).1 ("out", "roads.shp") =
    some { schema := [("UGID", "int"), ("NAME", "str"), ("CODE", "str")]
           features := [⟨3, [("NAME", .text "a"), ("UGID", .int 1), ("CODE", .text "12")]⟩,
             ⟨4, [("NAME", .text "b"), ("UGID", .int 2), ("CODE", .text "12")]⟩,
             ⟨5, [("NAME", .text "c"), ("UGID", .int 3), ("CODE", .text "north")]⟩] } := by rfl

/-- The output is in the folder that was given, under the key with the ending of shapefiles, or under the name of the source. -/
theorem C114_target (path : Path) (folder : String) (key : Option String) :
    (target path folder key).1 = folder ∧ (key = none → (target path folder key).2 = path.2) ∧
      ∀ k, key = some k → (target path folder key).2 = k ++ ".shp" := by
  refine ⟨rfl, ?_, ?_⟩
  · rintro rfl; rfl
  · rintro k rfl; rfl

/-- Counted identifiers differ from each other, whatever the source has under the name of the identifier. -/
theorem C114_unique {γ : Type} (parse : String → Option Int) (valid : γ → Bool) (clean : γ → γ) (d : Disk γ) (path : Path)
    (folder : String) (key name : Option String) (s : Shp γ) (hs : d path = some s) (hne : target path folder key ≠ path) :
    ∃ d' o, process parse valid clean d path folder key none name = (d', .ok (target path folder key)) ∧
      d' (target path folder key) = some o ∧ IdentifiersDiffer (identifierOf name) o := by
  obtain ⟨d', o, h1, h2, h3, h4, -⟩ := C114_process_partial parse valid clean d path folder key name s hs hne
  refine ⟨d', o, h1, h2, ?_⟩
  unfold IdentifiersDiffer
  have hall : o.features.map (fun f => getProp f.props (identifierOf name)) =
      (List.range o.features.length).map fun i => some (Val.int ((i + 1 : Nat) : Int)) := by
    apply List.ext_getElem?
    intro i
    by_cases hi : i < o.features.length
    · have hi' : i < s.features.length := h3 ▸ hi
      have := (h4 i _ _ (List.getElem?_eq_getElem hi') (List.getElem?_eq_getElem hi)).1
      simp [hi, this]
    · simp [hi]
  rw [hall, List.nodup_iff_pairwise_ne, List.pairwise_map]
  refine List.Pairwise.imp ?_ (List.nodup_iff_pairwise_ne.1 List.nodup_range)
  intro a b hab h
  simp only [Option.some.injEq, Val.int.injEq] at h
  omega

/-- The identifier is the first property of the output and an integer; the other properties of the source follow in their order, each with its
type. This holds however the identifiers are made and whether or not it ends well. The identifier is `UGID` unless a name is given; an empty
name is none. -/
theorem C114_schema {γ : Type} (parse : String → Option Int) (valid : γ → Bool) (clean : γ → γ) (d : Disk γ) (path : Path)
    (folder : String) (key ugid name : Option String) (s : Shp γ) (hs : d path = some s) :
    (∃ o, (process parse valid clean d path folder key ugid name).1 (target path folder key) = some o ∧
      ∃ rest, o.schema = (identifierOf name, "int") :: rest ∧ rest.Sublist s.schema ∧
        ∀ p, p ∈ rest ↔ p ∈ s.schema ∧ p.1 ≠ identifierOf name) ∧
    (name = none ∨ name = some "" → identifierOf name = "UGID") ∧ ∀ n, n ≠ "" → name = some n → identifierOf name = n := by
  refine ⟨?_, ?_, ?_⟩
  · have hsome : ∃ fs, (process parse valid clean d path folder key ugid name).1 (target path folder key) =
        some { schema := newSchema s.schema (identifierOf name), features := fs } := by
      simp only [process, hs]
      cases h1 : put d (target path folder key) { schema := newSchema s.schema (identifierOf name), features := [] } path with
      | none => exact ⟨[], by simp [put]⟩
      | some s1 =>
        simp only []
        cases h2 : (loop parse valid clean (identifierOf name) ugid 1 s1.features).2 with
        | error e => exact ⟨_, by simp only [put, if_true]; rfl⟩
        | ok u => exact ⟨_, by simp only [put, if_true]; rfl⟩
    obtain ⟨fs, hfs⟩ := hsome
    exact ⟨_, hfs, _, rfl, List.filter_sublist, fun p => by simp⟩
  · rintro (rfl | rfl) <;> simp [identifierOf]
  · rintro n hn rfl
    simp [identifierOf, hn]

example : newSchema roads.schema "ID" = ("ID", "int") :: roads.schema ∧ identifierOf (some "ID") = "ID" := by decide +kernel

/-- Identifiers from a property: if it is an integer for every feature, each feature has that integer. -/
theorem C114_copied_partial {γ : Type} (parse : String → Option Int) (valid : γ → Bool) (clean : γ → γ) (d : Disk γ) (path : Path)
    (folder a : String) (key name : Option String) (s : Shp γ) (hs : d path = some s) (hne : target path folder key ≠ path)
    (hint : ∀ f ∈ s.features, ∃ v i, getProp f.props a = some v ∧ IntegerOf parse v i) :
    ∃ d' o, process parse valid clean d path folder key (some a) name = (d', .ok (target path folder key)) ∧
      d' (target path folder key) = some o ∧ o.features.length = s.features.length ∧
      (∀ (i : Nat) f g, s.features[i]? = some f → o.features[i]? = some g → ∃ v j, getProp f.props a = some v ∧ IntegerOf parse v j ∧
        IdentifiedAs valid clean (identifierOf name) f g j) ∧
      ∀ p, p ≠ target path folder key → d' p = d p := by
  obtain ⟨out, h1, h2, h3⟩ := loop_copy parse valid clean (identifierOf name) a s.features 1 hint
  obtain ⟨d', e1, e2, e3⟩ := process_eq parse valid clean d path folder key (some a) name s hs hne out _ h1
  exact ⟨d', _, e1, e2, h2, h3, e3⟩

private def measured : Shp Nat where
  schema := [("LEN", "float")]
  features := [⟨1, [("LEN", .real (5/2))]⟩, ⟨2, [("LEN", .real (11/4))]⟩]

example : ∀ f ∈ measured.features, ∃ v i, getProp f.props "LEN" = some v ∧ IntegerOf digits v i := by
  intro f hf
  simp only [measured, List.mem_cons, List.not_mem_nil, or_false] at hf
  rcases hf with rfl | rfl
  · exact ⟨.real (5/2), 2, by decide +kernel, .inr (.inl ⟨_, rfl, fun _ => by decide +kernel, fun h => absurd h (by decide +kernel)⟩)⟩
  · exact ⟨.real (11/4), 2, by decide +kernel, .inr (.inl ⟨_, rfl, fun _ => by decide +kernel, fun h => absurd h (by decide +kernel)⟩)⟩

/-- Identifiers from a property need not differ: whenever two features have the same integer there, so have they in the output, and nothing is
raised. -/
theorem C114_copied_never {γ : Type} (parse : String → Option Int) (valid : γ → Bool) (clean : γ → γ) (d : Disk γ) (path : Path)
    (folder a : String) (key name : Option String) (s : Shp γ) (hs : d path = some s) (hne : target path folder key ≠ path)
    (hint : ∀ f ∈ s.features, ∃ v i, getProp f.props a = some v ∧ IntegerOf parse v i)
    (i j : Nat) (f g : Feature γ) (v w : Val) (n : Int) (hi : s.features[i]? = some f) (hj : s.features[j]? = some g) (hij : i ≠ j)
    (hv : getProp f.props a = some v) (hw : getProp g.props a = some w) (hvn : IntegerOf parse v n) (hwn : IntegerOf parse w n) :
    ∃ d' o, process parse valid clean d path folder key (some a) name = (d', .ok (target path folder key)) ∧
      d' (target path folder key) = some o ∧ ¬ IdentifiersDiffer (identifierOf name) o := by
  obtain ⟨d', o, h1, h2, h3, h4, -⟩ := C114_copied_partial parse valid clean d path folder a key name s hs hne hint
  refine ⟨d', o, h1, h2, ?_⟩
  have get : ∀ (k : Nat) (x : Feature γ) (u : Val), s.features[k]? = some x → getProp x.props a = some u → IntegerOf parse u n →
      (o.features.map fun f => getProp f.props (identifierOf name))[k]? = some (some (Val.int n)) := by
    intro k x u hk hu hn
    have hlt : k < o.features.length := by
      rw [h3]
      exact (List.getElem?_eq_some_iff.1 hk).1
    obtain ⟨v', j', hv', hj', hid⟩ := h4 k x _ hk (List.getElem?_eq_getElem hlt)
    rw [hu] at hv'
    cases hv'
    have e1 := (toInt_ok parse u n).2 hn
    have e2 := (toInt_ok parse u j').2 hj'
    rw [e1] at e2
    cases e2
    rw [List.getElem?_map, List.getElem?_eq_getElem hlt]
    simp [hid.1]
  have gi := get i f v hi hv hvn
  have gj := get j g w hj hw hwn
  intro hnd
  have hli := (List.getElem?_eq_some_iff.1 gi)
  have hlj := (List.getElem?_eq_some_iff.1 gj)
  obtain ⟨li, ei⟩ := hli
  obtain ⟨lj, ej⟩ := hlj
  exact hij ((List.getElem_inj (xs := o.features.map fun (f : Feature γ) => getProp f.props (identifierOf name)) (h₀ := li) (h₁ := lj) hnd).1 (ei.trans ej.symm))

example : (process digits okGeom fix (fun p => if p = ("in", "m.shp") then some measured else none) ("in", "m.shp") "out" none (some "LEN") none).1
    ("out", "m.shp") = some { schema := [("UGID", "int"), ("LEN", "float")]
                              features := [⟨1, [("LEN", .real (5/2)), ("UGID", .int 2)]⟩, ⟨2, [("LEN", .real (11/4)), ("UGID", .int 2)]⟩] } := by decide +kernel

/-- A property that is no integer for some feature, or is not there, raises an exception, but the output stays: it has the features before
that one, with their identifiers, and no others. -/
theorem C114_refused_never {γ : Type} (parse : String → Option Int) (valid : γ → Bool) (clean : γ → γ) (d : Disk γ) (path : Path)
    (folder a : String) (key name : Option String) (s : Shp γ) (hs : d path = some s) (hne : target path folder key ≠ path)
    (before after : List (Feature γ)) (bad : Feature γ) (hf : s.features = before ++ bad :: after)
    (hint : ∀ f ∈ before, ∃ v i, getProp f.props a = some v ∧ IntegerOf parse v i)
    (hbad : ∀ v, getProp bad.props a = some v → ∀ i, ¬ IntegerOf parse v i) :
    ∃ d' e o, process parse valid clean d path folder key (some a) name = (d', .error e) ∧
      d' (target path folder key) = some o ∧ o.features.length = before.length ∧
      (∀ (i : Nat) f g, before[i]? = some f → o.features[i]? = some g → ∃ v j, getProp f.props a = some v ∧ IntegerOf parse v j ∧
        IdentifiedAs valid clean (identifierOf name) f g j) ∧
      ∀ p, p ≠ target path folder key → d' p = d p := by
  obtain ⟨out, e, h1, h2, h3⟩ := loop_stop parse valid clean (identifierOf name) a before bad after 1 hint hbad
  rw [← hf] at h1
  obtain ⟨d', e1, e2, e3⟩ := process_eq parse valid clean d path folder key (some a) name s hs hne out _ h1
  exact ⟨d', e, _, e1, e2, h2, h3, e3⟩

example : (process digits okGeom fix disk ("in", "roads.shp") "out" none (some "CODE") none).2 = .error .valueError ∧
    ((process digits okGeom fix disk ("in", "roads.shp") "out" none (some "CODE") none).1 ("out", "roads.shp")).map (·.features.length) = some 2 := by
  decide +kernel

/-- With the folder of the source and no key, or the key that is its name, the output is the source: all its features are lost, and nothing is
raised. -/
theorem C114_same_never {γ : Type} (parse : String → Option Int) (valid : γ → Bool) (clean : γ → γ) (d : Disk γ) (path : Path)
    (folder : String) (key ugid name : Option String) (s : Shp γ) (hs : d path = some s) (hfolder : folder = path.1)
    (hkey : key = none ∨ ∃ k, key = some k ∧ path.2 = k ++ ".shp") :
    ∃ d' o, process parse valid clean d path folder key ugid name = (d', .ok path) ∧ d' path = some o ∧ o.features = [] := by
  have ht : target path folder key = path := by
    subst hfolder
    rcases hkey with rfl | ⟨k, rfl, hk⟩
    · rfl
    · simp [target, ← hk]
  simp only [process, hs, ht, put, if_true, loop]
  exact ⟨_, _, rfl, if_pos rfl, rfl⟩

example : ((process digits okGeom fix disk ("in", "roads.shp") "in" (some "roads") none none).1 ("in", "roads.shp")).map (·.features.length) =
    some 0 := by decide +kernel

/-- A source that is not there is an `IOError`, and no file is written. -/
theorem C114_missing {γ : Type} (parse : String → Option Int) (valid : γ → Bool) (clean : γ → γ) (d : Disk γ) (path : Path)
    (folder : String) (key ugid name : Option String) (hs : d path = none) :
    process parse valid clean d path folder key ugid name = (d, .error .ioError) := by
  simp only [process, hs]

example : disk ("in", "rivers.shp") = none := by decide +kernel

/-- The command does not use its options for the name of the output and for the property with the identifiers: whatever they are, it does what
it does without them. -/
theorem C114_options_never {γ : Type} (parse : String → Option Int) (valid : γ → Bool) (clean : γ → γ) (d : Disk γ) (path : Path)
    (folder key ugid : Option String) :
    command parse valid clean d path folder key ugid = command parse valid clean d path folder none none ∧
    ∀ f, folder = some f → command parse valid clean d path folder key ugid = process parse valid clean d path f none none none := by
  refine ⟨rfl, ?_⟩
  rintro f rfl
  rfl

/-- Without a folder the command, which says that it takes the current one then, always ends with a `TypeError` and writes nothing. -/
theorem C114_folder_never {γ : Type} (parse : String → Option Int) (valid : γ → Bool) (clean : γ → γ) (d : Disk γ) (path : Path)
    (key ugid : Option String) : command parse valid clean d path none key ugid = (d, .error .typeError) := rfl

end Ocgis.Props
