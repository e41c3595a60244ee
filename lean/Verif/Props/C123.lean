import Verif.Proofs.CrsCreate
/-!
# C123: Making a coordinate system from a definition
-/
namespace Ocgis.Props
open Spec Ocgis.CrsCreate Proofs.CrsCreate

/-- Libraries that take every definition as it is. -/
private def plainProj : Proj where
  norm d := d
  parse t := [("proj", .text t.toList)]
  codeText c := if c = 3857 then "merc" else "utm"
  int t := if t = ['3', '8', '5', '7'] then some 3857 else none

/-- A definition, a text or a code alone is what the coordinate system is made of, and nothing at all is refused. Missing: definitions have no
`init`, and the code is not 4326 (below). -/
theorem C123_alone_partial (P : Proj) (name : String) :
    (∀ d, DefLacks d "init" → P.norm d ≠ [] → make P (some d) none none name = .ok ⟨.plain, name, none, P.norm d⟩) ∧
    (∀ t, P.norm (P.parse t) ≠ [] → make P none (some t) none name = .ok ⟨.plain, name, none, P.norm (P.parse t)⟩) ∧
    (∀ c : Int, c ≠ 4326 → P.norm (P.parse (P.codeText c)) ≠ [] →
      make P none none (some c) name = .ok ⟨.plain, name, some c, P.norm (P.parse (P.codeText c))⟩) ∧
    make P none none none name = .error .valueError := by
  refine ⟨?_, ?_, ?_, ?_⟩
  · intro d hd h
    rw [make_start _ _ _ _ _ (by simp)]
    simp only [initCheck_lacks P d none hd]
    exact finish_ok P _ _ _ d h
  · intro t h
    rw [make_start _ _ _ _ _ (by simp)]
    exact finish_ok P _ _ _ _ h
  · intro c hc h
    rw [make_start _ _ _ _ _ (by simpa using hc)]
    exact finish_ok P _ _ _ _ h
  · rw [make_start _ _ _ _ _ (by simp)]
    rfl

example : make plainProj none none (some 3857) "m" = .ok ⟨.plain, "m", some 3857, [("proj", .text ['m', 'e', 'r', 'c'])]⟩ := by decide +kernel

/-- What the libraries make nothing of is refused. -/
theorem C123_empty (P : Proj) (name : String) :
    (∀ d, DefLacks d "init" → P.norm d = [] → make P (some d) none none name = .error .valueError) ∧
    (∀ t, P.norm (P.parse t) = [] → make P none (some t) none name = .error .valueError) ∧
    ∀ c : Int, c ≠ 4326 → P.norm (P.parse (P.codeText c)) = [] → make P none none (some c) name = .error .valueError := by
  refine ⟨?_, ?_, ?_⟩
  · intro d hd h
    rw [make_start _ _ _ _ _ (by simp)]
    simp only [initCheck_lacks P d none hd]
    exact finish_empty P _ _ _ d h
  · intro t h
    rw [make_start _ _ _ _ _ (by simp)]
    exact finish_empty P _ _ _ _ h
  · intro c hc h
    rw [make_start _ _ _ _ _ (by simpa using hc)]
    exact finish_empty P _ _ _ _ h

example : make plainProj (some []) none none "m" = .error .valueError := by decide +kernel

/-- A definition is taken before a text, and a text before a code; the code is still remembered. -/
theorem C123_order (P : Proj) (name : String) (c : Option Int) (hc : c ≠ some 4326) :
    (∀ d t, DefLacks d "init" → P.norm d ≠ [] → make P (some d) t c name = .ok ⟨.plain, name, c, P.norm d⟩) ∧
    ∀ t, P.norm (P.parse t) ≠ [] → make P none (some t) c name = .ok ⟨.plain, name, c, P.norm (P.parse t)⟩ := by
  refine ⟨?_, ?_⟩
  · intro d t hd h
    rw [make_start _ _ _ _ _ hc]
    simp only [initCheck_lacks P d c hd]
    exact finish_ok P _ _ _ d h
  · intro t h
    rw [make_start _ _ _ _ _ hc]
    exact finish_ok P _ _ _ _ h

/-- With the code 4326 a definition or a text that is given, too, is dropped. -/
theorem C123_code_never (P : Proj) (name : String) (v v' : Option Def) (t t' : Option String) (hi : DefLacks (P.norm wgsDef) "init")
    (h : P.norm wgsDef ≠ []) (h' : P.norm (P.norm wgsDef) ≠ []) :
    make P v t (some 4326) name = .ok ⟨.plain, name, some 4326, P.norm (P.norm wgsDef)⟩ ∧
      make P v' t' (some 4326) name = make P v t (some 4326) name := by
  have key : ∀ (v : Option Def) (t : Option String),
      make P v t (some 4326) name = .ok ⟨.plain, name, some 4326, P.norm (P.norm wgsDef)⟩ := by
    intro v t
    unfold make
    simp only
    rw [if_pos trivial, wgs84, finish_ok P _ _ _ _ h]
    show ((initCheck P (P.norm wgsDef) (some 4326)).bind fun vc => (choose P vc.1 t vc.2).bind fun d => finish P .plain name (some 4326) d) = _
    rw [initCheck_lacks P _ _ hi]
    exact finish_ok P _ _ _ _ h'
  exact ⟨key v t, by rw [key, key]⟩

example : make plainProj (some [("proj", .text ['u', 't', 'm'])]) none (some 4326) "m" = .ok ⟨.plain, "m", some 4326, wgsDef⟩ := by decide +kernel

/-- A definition that begins with the key for a code means the code. Missing: it must be the first key, in lower case and without a text
(`C123_init_never`). -/
theorem C123_init_partial (P : Proj) (name : String) (n : List Char) (hn : ':' ∉ n) (d : Def) :
    (∀ c, P.int n = some c → P.norm (P.parse (P.codeText c)) ≠ [] →
      make P (some (("init", .text ('e' :: 'p' :: 's' :: 'g' :: ':' :: n)) :: d)) none none name =
        .ok ⟨.plain, name, none, P.norm (P.parse (P.codeText c))⟩) ∧
    (P.int n = none → make P (some (("init", .text ('e' :: 'p' :: 's' :: 'g' :: ':' :: n)) :: d)) none none name = .error .valueError) := by
  constructor
  · intro c hc h
    rw [make_start _ _ _ _ _ (by simp)]
    simp [initCheck, get?, second_code n hn, hc, Except.bind, choose, finish_ok P _ _ _ _ h]
  · intro hc
    rw [make_start _ _ _ _ _ (by simp)]
    simp [initCheck, get?, second_code n hn, hc, Except.bind]

example : make plainProj (some [("init", .text ['e', 'p', 's', 'g', ':', '3', '8', '5', '7']), ("no_defs", .flag true)]) none none "m" =
    .ok ⟨.plain, "m", none, [("proj", .text ['m', 'e', 'r', 'c'])]⟩ := by decide +kernel

/-- After another key that is a flag or a number it fails with another exception, after a text, or in capital letters, it is handed on, and with a
text for PROJ.4 it is dropped. -/
theorem C123_init_never (P : Proj) (name : String) :
    (∀ k v d, (∀ t, v ≠ .text t) → ¬ DefLacks ((k, v) :: d) "init" → make P (some ((k, v) :: d)) none none name = .error .attributeError) ∧
    (∀ k t d, t.take 4 ≠ ['e', 'p', 's', 'g'] → P.norm ((k, .text t) :: d) ≠ [] →
      make P (some ((k, .text t) :: d)) none none name = .ok ⟨.plain, name, none, P.norm ((k, .text t) :: d)⟩) ∧
    ∀ n c d p, ':' ∉ n → P.int n = some c → P.norm (P.parse p) ≠ [] →
      make P (some (("init", .text ('e' :: 'p' :: 's' :: 'g' :: ':' :: n)) :: d)) (some p) none name =
        .ok ⟨.plain, name, none, P.norm (P.parse p)⟩ := by
  refine ⟨?_, ?_, ?_⟩
  · intro k v d hv hi
    rw [make_start _ _ _ _ _ (by simp)]
    have hs : (get? "init" ((k, v) :: d)).isSome = true := by
      cases h : get? "init" ((k, v) :: d) with
      | some _ => rfl
      | none => exact absurd ((get_none _ _).1 h) hi
    have hc : initCheck P ((k, v) :: d) none = .error .attributeError := by
      unfold initCheck
      rw [if_pos hs]
      cases v with
      | text t => exact absurd rfl (hv t)
      | num q => rfl
      | flag b => rfl
    simp only [hc]
    rfl
  · intro k t d ht h
    rw [make_start _ _ _ _ _ (by simp)]
    have hc : initCheck P ((k, .text t) :: d) none = .ok (some ((k, .text t) :: d), none) := by
      unfold initCheck
      by_cases hs : (get? "init" ((k, .text t) :: d)).isSome = true
      · rw [if_pos hs]
        simp only
        rw [if_neg ht]
      · rw [if_neg hs]
    simp only [hc]
    exact finish_ok P _ _ _ _ h
  · intro n c d p hn hc h
    rw [make_start _ _ _ _ _ (by simp)]
    simp [initCheck, get?, second_code n hn, hc, Except.bind, choose, finish_ok P _ _ _ _ h]

example : make plainProj (some [("no_defs", .flag true), ("init", .text ['e', 'p', 's', 'g', ':', '3', '8', '5', '7'])]) none none "m" =
    .error .attributeError := by decide +kernel

/-- From a definition the sphere, or WGS84, or else the system with this definition is made, and nothing from nothing. -/
theorem C123_create (P : Proj) (name : String) :
    create P .nothing name = .ok none ∧
    (∀ d, OnSphere d → ¬ OnWgs84 d → create P (.dict d) name = (spherical P).map some) ∧
    (∀ d, OnWgs84 d → ¬ OnSphere d → create P (.dict d) name = (wgs84 P).map some) ∧
    (∀ d, ¬ OnWgs84 d → ¬ OnSphere d → create P (.dict d) name = (make P (some d) none none name).map some) ∧
    ∀ d, create P (.system (some d)) name = create P (.dict d) name := by
  refine ⟨rfl, ?_, ?_, ?_, fun _ => rfl⟩
  · intro d hs hw
    have h1 := (sphere_iff d).2 hs
    have h2 : ¬ _ := fun h => hw ((wgs_iff d).1 h)
    simp only [Bool.not_eq_true] at h2
    simp only [create, createDef, h1, h2]
    rfl
  · intro d hw hs
    have h1 := (wgs_iff d).2 hw
    have h2 : ¬ _ := fun h => hs ((sphere_iff d).1 h)
    simp only [Bool.not_eq_true] at h2
    simp only [create, createDef, h1, h2]
    rfl
  · intro d hw hs
    have h1 : ¬ _ := fun h => hw ((wgs_iff d).1 h)
    have h2 : ¬ _ := fun h => hs ((sphere_iff d).1 h)
    simp only [Bool.not_eq_true] at h1 h2
    simp only [create, createDef, h1, h2]
    rfl

/-- The sphere and WGS84 are longitudes and latitudes, the sphere with the default radius. -/
theorem C123_made (P : Proj) :
    (∃ d, OnSphere d ∧ ¬ OnWgs84 d ∧ (P.norm d ≠ [] → spherical P = .ok ⟨.spherical, "latitude_longitude", none, P.norm d⟩) ∧
      (P.norm d = [] → spherical P = .error .valueError)) ∧
    OnWgs84 wgsDef ∧ ¬ OnSphere wgsDef ∧ (P.norm wgsDef ≠ [] → wgs84 P = .ok ⟨.wgs84, "WGS84_EPSG_4326", none, P.norm wgsDef⟩) ∧
    (P.norm wgsDef = [] → P.norm (wgsDef ++ [("ellps", datum84)]) ≠ [] →
      wgs84 P = .ok ⟨.wgs84, "WGS84_EPSG_4326", none, P.norm (wgsDef ++ [("ellps", datum84)])⟩) := by
  refine ⟨⟨_, ?_, ?_, fun h => finish_ok P _ _ _ _ h, fun h => finish_empty P _ _ _ _ h⟩, ?_, ?_, ?_, ?_⟩
  · rw [← sphere_iff]; decide +kernel
  · rw [← wgs_iff]; decide +kernel
  · rw [← wgs_iff]; decide +kernel
  · rw [← sphere_iff]; decide +kernel
  · intro h
    rw [wgs84, finish_ok P _ _ _ _ h]
  · intro h h'
    rw [wgs84, finish_empty P _ _ _ _ h]
    exact finish_ok P _ _ _ _ h'

/-- Everything else in a definition of the sphere or of WGS84, such as another prime meridian, and the name asked for are lost. -/
theorem C123_create_never (P : Proj) (name name' : String) (d e : Def) (he : DefLacks e "proj" ∧ DefLacks e "a" ∧ DefLacks e "b" ∧
    DefLacks e "datum" ∧ DefLacks e "towgs84") (h : OnSphere d ∨ OnWgs84 d) : create P (.dict (d ++ e)) name = create P (.dict d) name' := by
  have hg : ∀ k, DefLacks e k → get? k (d ++ e) = get? k d := by
    intro k hk
    have := (get_none k e).2 hk
    unfold get? at this ⊢
    rw [Option.map_eq_none_iff] at this
    rw [List.find?_append, this, Option.or_none]
  obtain ⟨h1, h2, h3, h4, h5⟩ := he
  have hs : fuzzy [("a", .num 6370997), ("b", .num 6370997), ("proj", longlat)] (d ++ e) =
      fuzzy [("a", .num 6370997), ("b", .num 6370997), ("proj", longlat)] d := by
    unfold fuzzy unshifted
    simp only [List.all_cons, List.all_nil, hg _ h1, hg _ h2, hg _ h3, hg _ h5]
  have hw : fuzzy [("datum", datum84), ("proj", longlat)] (d ++ e) = fuzzy [("datum", datum84), ("proj", longlat)] d := by
    unfold fuzzy unshifted
    simp only [List.all_cons, List.all_nil, hg _ h1, hg _ h4, hg _ h5]
  simp only [create, createDef, hs, hw]
  rcases h with h | h
  · rw [(sphere_iff d).2 h]
    cases fuzzy [("datum", datum84), ("proj", longlat)] d <;> rfl
  · rw [(wgs_iff d).2 h]
    cases fuzzy [("a", .num 6370997), ("b", .num 6370997), ("proj", longlat)] d <;> rfl

example : create plainProj (.dict (wgsDef ++ [("pm", .num 180)])) "mine" = .ok (some ⟨.wgs84, "WGS84_EPSG_4326", none, wgsDef⟩) := by decide +kernel

/-- A definition with the radius and the datum is refused, and so is a system without a definition. -/
theorem C123_both_never (P : Proj) (name : String) :
    (∀ d, OnSphere d → OnWgs84 d → create P (.dict d) name = .error .valueError) ∧
    create P (.system none) name = .error .attributeError := by
  refine ⟨?_, rfl⟩
  intro d hs hw
  simp only [create, createDef, (sphere_iff d).2 hs, (wgs_iff d).2 hw]
  rfl

example : create plainProj (.dict [("proj", longlat), ("a", .num 6370997), ("b", .num 6370997), ("datum", datum84)]) "m" = .error .valueError := by
  decide +kernel

end Ocgis.Props
