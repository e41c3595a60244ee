import Verif.Proofs.NcWrite

namespace Ocgis.Props
open Ocgis Ocgis.NcWrite Ocgis.Spec
open Ocgis.Array (Arr)

/-- **C79.**  If several processes write a dataset that is distributed over them, then in whatever order they proceed none of them raises
an exception or waits forever, no two of them have the file open at the same time, and the file in the end is the one that a single
process with the whole dataset writes.  It holds every element of every variable.  Missing: the options for unlimited dimensions and
for files without data, and masked elements where those of rank 0 are not; see the counterexamples. -/
theorem C79_parallel_partial {α : Type} (cfg : Cfg α) (hfo : cfg.fileOnly = false) (hfix : cfg.toFixed = false)
    (whole : Coll α) (colls : List (Coll α)) (h2 : 2 ≤ colls.length) (hs : SoundColl whole) (hself : SplitOf whole [whole])
    (hsplit : SplitOf whole colls)
    (hmask : ∀ c, colls[0]? = some c → ∀ W ∈ whole.pieces, ∀ p ∈ c.pieces, p.name = W.name →
      W.fillAttr = false → SomeMasked W → SomeMasked p)
    (before before' : Option (NcFile α)) :
    ∃ f,
      (∀ t, Steps cfg (NcWrite.start before colls) t →
        t.raised = [] ∧ t.opened.length ≤ 1 ∧ (Finished t → t.file = some f) ∧ (¬ Finished t → ∃ u, Step cfg t u)) ∧
      (∀ t, Steps cfg (NcWrite.start before' [whole]) t →
        t.raised = [] ∧ (Finished t → t.file = some f) ∧ (¬ Finished t → ∃ u, Step cfg t u)) ∧
      f.attrs = whole.attrs ∧ ∀ W ∈ whole.pieces, W.kind ≠ .geometry → FileHolds cfg.dflt f W := by
  cases colls with
  | nil => simp at h2
  | cons c cs =>
    have hcs : cs ≠ [] := by rintro rfl; simp at h2
    have hn : ((written whole).map Piece.name).Nodup := hs.names.sublist (List.filter_sublist.map _)
    have hmem : ∀ W ∈ written whole, W ∈ whole.pieces := fun W hW => (List.mem_filter.1 hW).1
    obtain ⟨e, g, P, h1, hF, hP⟩ := parallel_file cfg hfo hfix whole c cs hcs hs hsplit (hmask c rfl) before
    obtain ⟨e', g', Q, k1, hG, hQ⟩ := serial_file cfg hfo hfix whole hs hself before'
    have hpos : ∀ W ∈ written whole, ∀ D ∈ W.dims, 0 < D.len := by
      intro W hW D hD
      obtain ⟨V, hV, hVW⟩ := parts_mem (hself.parts whole List.mem_cons_self) W (hmem W hW)
      obtain ⟨E, -, hED⟩ := part_mem hVW.dims D hD
      exact hED.pos
    obtain ⟨u1, u2⟩ := filled_unique hn hP hQ hpos hF hG
    have hsame : fileOf (fillValue cfg .normal) whole.attrs (dimsOf (written whole)) e' g' (written whole) =
        fileOf (fillValue cfg .normal) whole.attrs (dimsOf (written whole)) e g (written whole) := by
      unfold fileOf
      rw [u1]
      congr 1
      apply List.map_congr_left
      intro W hW
      rw [u2 W hW]
    rw [hsame] at k1
    refine ⟨_, fun t ht => schedules cfg before (c :: cs) (by simp) _ h1 t ht, ?_, rfl, ?_⟩
    · intro t ht
      obtain ⟨r1, -, r3, r4⟩ := schedules cfg before' [whole] (by simp) _ k1 t ht
      exact ⟨r1, r3, r4⟩
    · intro W hWm hk
      have hW : W ∈ written whole := List.mem_filter.2 ⟨hWm, by simpa using hk⟩
      refine ⟨?_, ⟨W.dims.map Dim.name, fillValue cfg .normal W, g W, W.attrs⟩, lookup_fileOf _ g _ hn W hW, rfl, rfl, ?_⟩
      · intro d hd
        exact dimsOf_lookup (written whole) (fun V hV U hU => hs.dims V (hmem V hV) U (hmem U hU)) W hW d hd
      · intro A hA hplain
        have hcrs : W.kind ≠ .crs := by rw [hplain]; simp
        refine ⟨?_, ?_⟩
        · intro d hd
          have hlow := filled_extent hn hP hF hpos W hW hcrs (by rw [hA]; simp) d hd
          rcases hF.most d.name with h | ⟨V, hV, -, -, D, hD, hDn, hDe⟩
          · show e d.name = _
            omega
          · have := (hs.dims V (hmem V hV) W hWm D hD d hd hDn).1
            rw [this] at hDe
            show e d.name = _
            omega
        · intro ix hix
          have hc := (filled_data hn hP hF W hW ix).1 A hA hcrs hix
          unfold cell at hc
          refine ⟨?_, ?_⟩
          · intro hM
            show g W ix = _
            rw [hc]
            cases hm : W.mask with
            | none => rfl
            | some M => simp [hM M hm]
          · intro M hM hMx
            show g W ix = _
            rw [hc, hM]
            simp [hMx]

example : ∃ f : NcFile Nat,
    (∀ t, Steps { dflt := 77 } (NcWrite.start none [readings (fun ix => ix = [0, 1]) 0 2, readings (fun ix => ix = [0, 1]) 2 3]) t →
      t.raised = [] ∧ t.opened.length ≤ 1 ∧ (Finished t → t.file = some f) ∧ (¬ Finished t → ∃ u, Step { dflt := 77 } t u)) ∧
    FileHolds 77 f (reading (fun ix => ix = [0, 1]) 0 3) := by
  obtain ⟨f, h1, -, -, h4⟩ := C79_parallel_partial { dflt := 77 } rfl rfl (readings (fun ix => ix = [0, 1]) 0 3)
    [readings (fun ix => ix = [0, 1]) 0 2, readings (fun ix => ix = [0, 1]) 2 3] (by simp) (readings_sound _)
    (readings_split _ [(0, 3)] (by simp) (by intro i hi; exact ⟨(0, 3), by simp, by simp only; omega⟩))
    (readings_split _ [(0, 2), (2, 3)] (by simp) (by
      intro i hi
      by_cases h : i < 2
      · exact ⟨(0, 2), by simp, by simp only; omega⟩
      · exact ⟨(2, 3), by simp, by simp only; omega⟩))
    (by
      intro c hc W hW p hp hpn _ hm
      injection hc with hc
      subst hc
      simp only [readings, List.mem_cons, List.not_mem_nil, or_false] at hW hp
      rcases hp with rfl | rfl
      · exact ⟨_, rfl, [0, 1], ⟨rfl, by
          intro k i n hi hn
          match k with
          | 0 =>
            injection hi with hi
            injection hn with hn
            subst hi; subst hn
            decide
          | 1 =>
            injection hi with hi
            injection hn with hn
            subst hi; subst hn
            decide
          | k + 2 => simp at hi⟩, by simp⟩
      · rcases hW with rfl | rfl
        · simp [reading, placeVar] at hpn
        · exact hm)
    none none
  exact ⟨f, h1, h4 _ (by simp [readings]) (by simp [reading])⟩

/-- **C79.**  Writing comes to an end: whichever rank proceeds, less remains to be done. -/
theorem C79_ends {α : Type} (cfg : Cfg α) (s t : State α) (h : Step cfg s t) : remaining t < remaining s := remaining_step cfg s t h


/-- If only the structure of the file is asked for, nothing is ever stored in its variables, whatever the ranks' order. -/
theorem C79_file_only {α : Type} (cfg : Cfg α) (hfo : cfg.fileOnly = true) (colls : List (Coll α)) (t : State α)
    (h : Steps cfg (NcWrite.start none colls) t) (f : NcFile α) (hf : t.file = some f) : OnlyStructure cfg.dflt f := by
  suffices ∀ s t : State α, Steps cfg s t → (∀ f, s.file = some f → OnlyStructure cfg.dflt f) →
      ∀ f, t.file = some f → OnlyStructure cfg.dflt f from this _ t h (fun f h' => by cases h') f hf
  intro s t h hs
  induction h with
  | refl => exact hs
  | step _ st ih =>
    cases st with
    | run i op rest file _ _ he => exact onlyStructure_effect hfo he ih
    | fail i op rest e _ _ _ => exact ih
    | sync _ _ => exact ih

/-- C79 is false where elements are masked, but none of rank 0's: the file of several processes has no fill value and holds the
library's default in place of the masked element, the file of one process has one and holds that. -/
theorem C79_mask_counterexample : ∃ (s t : State Nat) (f g : NcFile Nat) (v w : NcVar Nat),
    Steps { dflt := 77 } (NcWrite.start none [readings (fun ix => ix = [2, 0]) 0 2, readings (fun ix => ix = [2, 0]) 2 3]) s ∧
    Steps { dflt := 77 } (NcWrite.start none [readings (fun ix => ix = [2, 0]) 0 3]) t ∧ Finished s ∧ Finished t ∧
    s.file = some f ∧ t.file = some g ∧ f.vars.lookup "tas" = some v ∧ g.vars.lookup "tas" = some w ∧
    v.fill = none ∧ w.fill = some 99 ∧ v.data [2, 0] = 77 ∧ w.data [2, 0] = 99 := by
  obtain ⟨s, hs1, hs2, hs3⟩ := finishes (α := Nat) { dflt := 77 } none
    [readings (fun ix => ix = [2, 0]) 0 2, readings (fun ix => ix = [2, 0]) 2 3] (by simp) _ rfl
  obtain ⟨t, ht1, ht2, ht3⟩ := finishes (α := Nat) { dflt := 77 } none [readings (fun ix => ix = [2, 0]) 0 3] (by simp) _ rfl
  exact ⟨s, t, _, _, _, _, hs1, ht1, hs2, ht2, hs3, ht3, rfl, rfl, rfl, rfl, rfl, rfl⟩

/-- C79 is false if only the structure of the file is asked for: several processes give the variable a fill value, one does not. -/
theorem C79_file_only_counterexample : ∃ (s t : State Nat) (f g : NcFile Nat) (v w : NcVar Nat),
    Steps { dflt := 77, fileOnly := true } (NcWrite.start none [readings (fun ix => ix = [0, 0]) 0 2, readings (fun ix => ix = [0, 0]) 2 3]) s ∧
    Steps { dflt := 77, fileOnly := true } (NcWrite.start none [readings (fun ix => ix = [0, 0]) 0 3]) t ∧ Finished s ∧ Finished t ∧
    s.file = some f ∧ t.file = some g ∧ f.vars.lookup "tas" = some v ∧ g.vars.lookup "tas" = some w ∧
    v.fill = some 99 ∧ w.fill = none := by
  obtain ⟨s, hs1, hs2, hs3⟩ := finishes (α := Nat) { dflt := 77, fileOnly := true } none
    [readings (fun ix => ix = [0, 0]) 0 2, readings (fun ix => ix = [0, 0]) 2 3] (by simp) _ rfl
  obtain ⟨t, ht1, ht2, ht3⟩ := finishes (α := Nat) { dflt := 77, fileOnly := true } none [readings (fun ix => ix = [0, 0]) 0 3] (by simp) _ rfl
  exact ⟨s, t, _, _, _, _, hs1, ht1, hs2, ht2, hs3, ht3, rfl, rfl, rfl, rfl⟩

/-- C79 is false if a rank has a variable that rank 0 has not: the file has no such variable when that rank's turn comes, the rank raises
an exception, and rank 0 waits for it forever. -/
theorem C79_extra_variable_counterexample : ∃ (t : State Nat),
    Steps { dflt := 77 } (NcWrite.start none [⟨[], [placeVar]⟩, ⟨[], [reading (fun _ => false) 0 3]⟩]) t ∧
    t.raised = [1] ∧ ¬ Finished t ∧ ∀ u, ¬ Step { dflt := 77 } t u := by
  refine leads (.run _ 0 _ _ _ rfl (by intro r h; cases h) rfl) ?_
  refine leads (.run _ 0 _ _ _ rfl (by intro r h; cases h) rfl) ?_
  refine leads (.run _ 0 _ _ _ rfl (by intro r h; cases h) rfl) ?_
  refine leads (.sync _ (by intro h; cases h) (barriers _ _)) ?_
  refine leads (.sync _ (by intro h; cases h) (barriers _ _)) ?_
  refine leads (.run _ 0 _ _ _ rfl (by intro r h; cases h) rfl) ?_
  refine leads (.run _ 0 _ _ _ rfl (by intro r h; cases h) rfl) ?_
  refine leads (.run _ 0 _ _ _ rfl (by intro r h; cases h) rfl) ?_
  refine leads (.sync _ (by intro h; cases h) (barriers _ _)) ?_
  refine leads (.run _ 1 _ _ _ rfl (by intro r h; cases h) rfl) ?_
  refine leads (.fail _ 1 _ _ .keyError rfl (by intro r h; cases h) rfl) ?_
  exact ⟨_, .refl _, rfl, stuck _ _ rfl⟩

/-- C79 is false if an unlimited dimension is to be given a fixed size and is distributed: the file gets rank 0's size, rank 1 raises an
exception when its turn comes, and rank 0 waits for it forever. -/
theorem C79_fixed_size_counterexample : ∃ (t : State Nat),
    Steps { dflt := 77, toFixed := true } (NcWrite.start none [readings (fun _ => false) 0 2, readings (fun _ => false) 2 3]) t ∧
    t.raised = [1] ∧ ¬ Finished t ∧ ∀ u, ¬ Step { dflt := 77, toFixed := true } t u := by
  refine leads (.run _ 0 _ _ _ rfl (by intro r h; cases h) rfl) ?_
  refine leads (.run _ 0 _ _ _ rfl (by intro r h; cases h) rfl) ?_
  refine leads (.run _ 0 _ _ _ rfl (by intro r h; cases h) rfl) ?_
  refine leads (.run _ 0 _ _ _ rfl (by intro r h; cases h) rfl) ?_
  refine leads (.sync _ (by intro h; cases h) (barriers _ _)) ?_
  refine leads (.sync _ (by intro h; cases h) (barriers _ _)) ?_
  refine leads (.run _ 0 _ _ _ rfl (by intro r h; cases h) rfl) ?_
  refine leads (.run _ 0 _ _ _ rfl (by intro r h; cases h) rfl) ?_
  refine leads (.run _ 0 _ _ _ rfl (by intro r h; cases h) rfl) ?_
  refine leads (.run _ 0 _ _ _ rfl (by intro r h; cases h) rfl) ?_
  refine leads (.sync _ (by intro h; cases h) (barriers _ _)) ?_
  refine leads (.run _ 1 _ _ _ rfl (by intro r h; cases h) rfl) ?_
  refine leads (.fail _ 1 _ _ .valueError rfl (by intro r h; cases h) rfl) ?_
  exact ⟨_, .refl _, rfl, stuck _ _ rfl⟩

end Ocgis.Props
