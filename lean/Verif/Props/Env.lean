import Verif.Proofs.Env

namespace Ocgis.Props
open Ocgis Ocgis.Text Ocgis.Env Ocgis.Spec

/-- **C55 (set)**: after any history, a parameter that is set to a value reads as that value from then on, whatever
the operating system's variables, until it is set again or the environment is reset.  Missing because false: the
value `'use_env'` (`C55_marker_counterexample`) and the parameter `DEFAULT_COORDSYS`
(`C55_coordsys_counterexample`). -/
theorem C55_set_partial (w : World) (before after : List Event) (name : String) (v : Val) (hn : name ∈ names)
    (hv : v ≠ .str "use_env".toList) (ha : ∀ e ∈ after, ¬ Touches name e) :
    let x := history w (before ++ .set name v :: after)
    read x.1 x.2 name = .ok v := by
  intro x
  have hx : x = run (run (w, (init w).2) before |> fun y => step y (.set name v)) after := by
    simp [x, history, run, List.foldl_append]
  have hnames := names_run w (init w).2 (by rw [names_init, declared_names]) before
  obtain ⟨p, hp, hpn⟩ := slot_of_name _ hnames name hn
  have hcs : name ≠ "DEFAULT_COORDSYS" := by rintro rfl; exact coordsys_not_name hn
  have hany : (run (w, (init w).2) before).2.any (fun p => p.name == name) = true := by
    have := List.mem_of_find?_eq_some hp
    simp only [List.any_eq_true, beq_iff_eq]
    exact ⟨p, this, hpn⟩
  have hslot : slot x.2 name = some { p with stored := v } := by
    rw [hx, slot_run _ _ _ _ ha]
    simp only [step, assign, if_neg hcs, hany, if_true, slot_store, hp, Option.map_some]
  rw [read_slot _ _ _ hn _ hslot, Parm.value, if_neg (show v ≠ useEnv from hv)]

/-- **C55 (not set)**: from the import or the last reset on, a parameter that is not set reads as the operating
system variable of the moment in the parameter's format, otherwise as the default (of the moment of that reset),
whatever happened before the reset and even if the reset raises.  Missing because false: the parameters probed at
the reset (`C55_probed_counterexample`). -/
theorem C55_unset_partial (w : World) (before after : List Event) (d : Decl)
    (hd : d ∈ declarations (history w before).1) (hp : d.name ∉ probed) (ha : ∀ e ∈ after, ¬ Touches d.name e) :
    let x := history w (before ++ .reset :: after)
    UnsetReads x.1 d (read x.1 x.2 d.name) := by
  intro x
  have hx : x = run ((history w before).1, (init (history w before).1).2) after := by
    simp [x, history, run, List.foldl_append, step]
  have hn : d.name ∈ names := by
    rw [← declared_names]; exact List.mem_map.2 ⟨d, hd, rfl⟩
  have hslot : slot x.2 d.name = some { d with stored := useEnv } := by
    rw [hx, slot_run _ _ _ _ ha, slot_init _ _ hp, slot_fresh _ _ hd]
  rw [read_slot _ _ _ hn _ hslot]
  exact value_unset _ _ (module_default _ _ hd)

/-- **C55 (at import)**: the same from the import on. -/
theorem C55_import_partial (w : World) (after : List Event) (d : Decl) (hd : d ∈ declarations w)
    (hp : d.name ∉ probed) (ha : ∀ e ∈ after, ¬ Touches d.name e) :
    let x := history w after
    UnsetReads x.1 d (read x.1 x.2 d.name) := by
  intro x
  have hn : d.name ∈ names := by
    rw [← declared_names]; exact List.mem_map.2 ⟨d, hd, rfl⟩
  have hslot : slot x.2 d.name = some { d with stored := useEnv } := by
    simp only [x, history]
    rw [slot_run _ _ _ _ ha, slot_init _ _ hp, slot_fresh _ _ hd]
  rw [read_slot _ _ _ hn _ hslot]
  exact value_unset _ _ (module_default _ _ hd)

/-- A world without operating system variables. -/
def bare : World :=
  { os := fun _ => none, cwd := "/tmp".toList, conf := "/root/.config/ocgis.conf".toList, importable := fun m => m == "rtree",
    netcdftime := true, parallelNetcdf := false, parseFloat := fun s => (toInt s).map fun i : Int => (i : Rat) }

example : "VERBOSE" ∈ names := by decide
example : (⟨"VERBOSE", .bool, .bool false⟩ : Decl) ∈ declarations (history bare [.set "VERBOSE" (.int 3)]).1 := by simp [declarations]
example : let x := history bare [.set "VERBOSE" (.int 3), .reset, .os "OCGIS_VERBOSE" (some " 1".toList)]
    read x.1 x.2 "VERBOSE" = .ok (.bool true) := by rfl
example : let x := history bare [.os "OCGIS_VERBOSE" (some "1".toList), .set "VERBOSE" (.int 3), .set "DEBUG" (.bool true)]
    read x.1 x.2 "VERBOSE" = .ok (.int 3) := by rfl

/-- **C55 (unknown names)**: assigning to a name that is no parameter raises and changes nothing. -/
theorem C55_unknown (w : World) (es : List Event) (name : String) (v : Val) (h : name ∉ names) (hc : name ≠ "DEFAULT_COORDSYS") :
    assign (history w es).2 name v = (.error .attributeError, (history w es).2)
    ∧ read (history w es).1 (history w es).2 name = .error .attributeError := by
  have hnames : (history w es).2.map (fun p => p.name) = names := names_run w (init w).2 (by rw [names_init, declared_names]) es
  have hno : ∀ p ∈ (history w es).2, p.name ≠ name := by
    intro p hp e
    rw [← hnames] at h
    exact h (e ▸ List.mem_map.2 ⟨p, hp, rfl⟩)
  constructor
  · rw [assign, if_neg hc, if_neg]
    simpa using hno
  · rw [Env.read, if_neg hc]
    have : (history w es).2.find? (fun p => p.name == name) = none := by
      simpa using hno
    rw [this]

example : "VERBOS" ∉ names := by decide

/-- **C55 (boolean variables)**: the texts a boolean variable may have are the integers, true unless zero, and
`t`, `true`, `f`, `false` in any case; every other text is refused when the parameter is read. -/
theorem C55_format_bool (s : Text) :
    (∀ b, formatBool s = .ok b ↔ BoolText s b) ∧ ((¬ ∃ b, BoolText s b) → formatBool s = .error .valueError) := by
  refine ⟨formatBool_iff s, fun h => ?_⟩
  cases hf : formatBool s with
  | ok b => exact absurd ⟨b, (formatBool_iff s b).1 hf⟩ h
  | error e => rw [formatBool_error s e hf]

example : formatBool " 1_0 ".toList = .ok true := by decide
example : formatBool "True".toList = .ok true := by decide
/-- A word with a blank is refused although an integer with blanks is not. -/
example : formatBool " true".toList = .error .valueError := by decide

/-- **C55 (counterexample)**: a parameter set to the text `'use_env'` reads as if it were not set. -/
theorem C55_marker_counterexample :
    let x := history bare [.set "PREFIX" (.str "use_env".toList)]
    read x.1 x.2 "PREFIX" = .ok (.str "ocgis_output".toList) := by rfl

/-- **C55 (counterexample)**: the default coordinate system cannot be set: assignments are accepted and lost. -/
theorem C55_coordsys_counterexample (w : World) (es : List Event) (v : Val) :
    let x := history w es
    (assign x.2 "DEFAULT_COORDSYS" v).1 = .ok ()
    ∧ read x.1 (assign x.2 "DEFAULT_COORDSYS" v).2 "DEFAULT_COORDSYS" = read x.1 x.2 "DEFAULT_COORDSYS" := by
  exact ⟨rfl, rfl⟩

/-- **C55 (counterexample)**: a probed parameter keeps what was probed at the import or reset and no longer follows
its operating system variable. -/
theorem C55_probed_counterexample :
    let x := history bare [.reset, .os "OCGIS_PREFER_NETCDFTIME" (some "0".toList)]
    read x.1 x.2 "PREFER_NETCDFTIME" = .ok (.bool true) := by rfl

/-- **C55 (counterexample)**: an operating system variable for a parameter without formatter stays text: the
maximum string length, an integer by default, reads as a string; so does a data type. -/
theorem C55_raw_counterexample (s : Text) :
    let x := history bare [.os "OCGIS_STRING_MAX_LENGTH" (some s)]
    read x.1 x.2 "STRING_MAX_LENGTH" = .ok (.str s) := by rfl

/-- **C55 (counterexample)**: an unreadable operating system variable for the first probed parameter makes the reset
raise before the second is probed, which then reads as `None`. -/
theorem C55_failed_reset_counterexample :
    let x := history bare [.os "OCGIS_PREFER_NETCDFTIME" (some "x".toList)]
    (init x.1).1 = .error .valueError
    ∧ let y := run x [.reset]
      read y.1 y.2 "USE_NETCDF4_MPI" = .ok .none ∧ read x.1 x.2 "USE_NETCDF4_MPI" = .ok (.bool false) := by
  refine ⟨by rfl, by rfl, by rfl⟩

end Ocgis.Props
