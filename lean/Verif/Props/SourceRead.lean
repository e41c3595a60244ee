import Verif.Proofs.SourceRead

namespace Ocgis.Props
open Ocgis Ocgis.DictSlice Ocgis.SourceRead Ocgis.Spec
open Ocgis.Array (Arr)

/-- **C78.**  If every dimension of a variable refers to increasing positions of its axis of the file, reading the variable
gives exactly those elements. -/
theorem C78_read_exact {α : Type} (file : Arr α) (dims : List Dim) (h : Refer dims file.shape) :
    ∃ a, readValue file dims = .ok a ∧ SameArray a (part file dims) := read_part file dims h

/-- **C78.**  A variable whose dimensions have no source index, only bounds, is read within its bounds. -/
theorem C78_bounds_read {α : Type} (file : Arr α) (dims : List Dim) (hl : dims.length = file.shape.length)
    (h : ∀ (k : Nat) d n, dims[k]? = some d → file.shape[k]? = some n →
      d.srcIdx = none ∧ 0 ≤ d.boundsLocal.1 ∧ d.boundsLocal.1 < d.boundsLocal.2 ∧ d.boundsLocal.2 ≤ n ∧
      d.len = d.boundsLocal.2 - d.boundsLocal.1) :
    ∃ a, readValue file dims = .ok a ∧ a.shape = dims.map (fun d => d.len.toNat) ∧
      ∀ ix, InsideShape a.shape ix → a.elem ix = file.elem (dims.zipWith (fun d i => d.boundsLocal.1.toNat + i) ix) :=
  read_bounds file dims hl h

example : ∃ a, readValue seaFile [⟨"y", some 2, some 2, true, false, some (3, 5), some (0, 6), none⟩,
    ⟨"x", some 5, some 5, false, false, none, none, none⟩] = .ok a ∧ a.shape = [2, 5] ∧ a.elem [1, 2] = 42 := ⟨_, rfl, rfl, rfl⟩

/-- **C78.**  Whatever is sliced, read, loaded or overwritten, and in whatever order, a caller sees the values they would have
seen had the variable been read at the start.  Missing: indices that keep nothing or reorder, slices with two index arrays,
removed values, dimensions without a source index; see the counterexamples. -/
theorem C78_deferred_partial {α : Type} (fill : α) (file : Arr α) (v : Sourced α) (acts : List (Act α))
    (hdims : Refer v.dims file.shape) (hvalue : v.value = none) (hloaded : v.loaded = false) (hguard : v.guarded = false)
    (hacts : GoodHistory (part file v.dims).shape acts) :
    ∃ outs v', run fill file v acts = .ok (outs, v') ∧ outs.length = (eagerRun (part file v.dims) acts).length ∧
      ∀ (k : Nat) a b, outs[k]? = some a → (eagerRun (part file v.dims) acts)[k]? = some b → SameArray a b := by
  refine tracks_run fill file acts v (part file v.dims) ⟨hguard, ?_, ?_, ?_, ?_⟩ hacts
  · intro d hd
    obtain ⟨k, hk⟩ := List.getElem?_of_mem hd
    have hkl : k < file.shape.length := by rw [← hdims.1]; exact (List.getElem?_eq_some_iff.1 hk).1
    have hr := hdims.2 k d _ hk (List.getElem?_eq_getElem hkl)
    exact ⟨hr.aligned, hr.pos⟩
  · unfold part
    simp only
    apply List.map_congr_left
    intro d hd
    obtain ⟨k, hk⟩ := List.getElem?_of_mem hd
    have hkl : k < file.shape.length := by rw [← hdims.1]; exact (List.getElem?_eq_some_iff.1 hk).1
    have hr := hdims.2 k d _ hk (List.getElem?_eq_getElem hkl)
    have := sources_length d hr.aligned hr.src
    have := hr.pos
    omega
  · intro a ha; rw [hvalue] at ha; cases ha
  · intro _; exact ⟨hloaded, hdims, rfl, fun _ _ => rfl⟩

example : ∃ a, readValue seaFile sea.dims = .ok a ∧ a.shape = [6, 3] ∧ a.elem [5, 1] = 52 := ⟨_, rfl, rfl, rfl⟩

/-- A slice, a read, a slice by truth values and another read. -/
def seaHistory : List (Act Nat) :=
  [.slice [.ints [1, 4, 5], .slice PySlice.all], .get, .slice [.slice ⟨some 1, some 3⟩, .bools [false, true, true]], .get]

example : ∃ a b v', run 0 seaFile sea seaHistory = .ok ([a, b], v') ∧ a.shape = [3, 3] ∧ a.elem [2, 1] = 52 ∧ b.shape = [2, 2] ∧
    b.elem [0, 1] = 44 := ⟨_, _, _, rfl, rfl, rfl, rfl, rfl⟩

example : GoodHistory (part seaFile sea.dims).shape seaHistory := by
  refine ⟨rfl, ?_, ?_, ?_⟩
  · intro k i n hi hn
    match k with
    | 0 =>
      injection hi with hi
      injection hn with hn
      subst hi; subst hn
      exact ⟨by decide, by decide, by decide⟩
    | 1 =>
      injection hi with hi
      injection hn with hn
      subst hi; subst hn
      exact .inl rfl
    | k + 2 => simp at hi
  · intro j k x y hx hy ux uy
    match j, k with
    | 0, 0 => rfl
    | 1, _ => injection hx with hx; subst hx; cases ux
    | 0, 1 => injection hy with hy; subst hy; cases uy
    | j + 2, _ => simp at hx
    | _, k + 2 => simp at hy
  · refine ⟨rfl, ?_, ?_, trivial⟩
    · intro k i n hi hn
      match k with
      | 0 =>
        injection hi with hi
        injection hn with hn
        subst hi; subst hn
        exact .inr ⟨1, 3, rfl, by decide, by decide, by decide⟩
      | 1 =>
        injection hi with hi
        injection hn with hn
        subst hi; subst hn
        exact ⟨by decide, by decide⟩
      | k + 2 => simp at hi
    · intro j k x y hx hy ux uy
      match j, k with
      | 1, 1 => rfl
      | 0, _ => injection hx with hx; subst hx; cases ux
      | _, 0 => injection hy with hy; subst hy; cases uy
      | j + 2, _ => simp at hx
      | _, k + 2 => simp at hy

/-- **C78.**  A variable whose reading is forbidden is never read: slicing it works and leaves it unread, and asking for its
value is refused. -/
theorem C78_protected {α : Type} (fill : α) (file : Arr α) (slices : List (List RawIndex)) :
    ∀ (v : Sourced α), v.value = none → v.loaded = false → v.guarded = true →
    (∀ outs v', run fill file v (slices.map .slice) = .ok (outs, v') → outs = [] ∧ v'.value = none ∧ v'.loaded = false) ∧
    ∀ rest r, run fill file v (slices.map .slice ++ .get :: rest) = r →
      r = .error .payloadProtected ∨ ∃ e, r = .error e ∧ run fill file v (slices.map .slice) = .error e := by
  induction slices with
  | nil =>
    intro v h1 h2 h3
    refine ⟨?_, ?_⟩
    · intro outs v' h
      simp only [List.map_nil, run] at h
      injection h with h
      injection h with h h'
      subst h; subst h'
      exact ⟨rfl, h1, h2⟩
    · intro rest r h
      left
      rw [← h]
      simp [run, force, h1, h2, h3]
  | cons idx slices ih =>
    intro v h1 h2 h3
    simp only [List.map_cons, List.cons_append, run]
    cases hs : slice idx v with
    | error e => exact ⟨(by intro _ _ h; cases h), fun rest r h => .inr ⟨e, h.symm, rfl⟩⟩
    | ok w =>
      have hw : w.value = none ∧ w.loaded = false ∧ w.guarded = true := by
        unfold slice at hs
        rw [h1] at hs
        split at hs
        · cases hs
        · split at hs
          · cases hs
          · simp only at hs
            injection hs with hs
            subst hs
            exact ⟨rfl, h2, h3⟩
      exact ih w hw.1 hw.2.1 hw.2.2

example : (∃ v', run 0 seaFile { sea with guarded := true } [.slice [.int 2, .slice PySlice.all]] = .ok ([], v') ∧ v'.value.isNone) ∧
    run 0 seaFile { sea with guarded := true } [.slice [.int 2, .slice PySlice.all], .get, .load] = .error .payloadProtected :=
  ⟨⟨_, rfl, rfl⟩, rfl⟩

/-- **C78.**  A value that was set is the value seen, also if reading is forbidden, and the file is not read. -/
theorem C78_set_wins {α : Type} (fill : α) (file file' : Arr α) (v : Sourced α) (a : Arr α) :
    ∃ v', run fill file v [.set a, .get] = .ok ([a], v') ∧ run fill file' v [.set a, .get] = .ok ([a], v') :=
  ⟨{ v with value := some a }, rfl, rfl⟩

example : ∃ v', run 0 seaFile { sea with guarded := true } [.set ⟨[6, 3], fun _ => 7⟩, .get] = .ok ([⟨[6, 3], fun _ => 7⟩], v') :=
  ⟨_, rfl⟩

/-- C78 is false for positions that are not in order: after slicing with `[0, 3, 1]` and with `1:3` two elements are to be
seen, and are if the value was read before; reading now gives three. -/
theorem C78_unordered_counterexample : ∃ (a b : Arr Nat) (v v' : Sourced Nat),
    run 0 ⟨[4], fun ix => ix.headD 0⟩ { dims := [⟨"x", some 4, some 4, false, false, none, none, some (.bounds 0 4)⟩] }
      [.slice [.ints [0, 3, 1]], .slice [.slice ⟨some 1, some 3⟩], .get] = .ok ([a], v) ∧
    run 0 ⟨[4], fun ix => ix.headD 0⟩ { dims := [⟨"x", some 4, some 4, false, false, none, none, some (.bounds 0 4)⟩] }
      [.load, .slice [.ints [0, 3, 1]], .slice [.slice ⟨some 1, some 3⟩], .get] = .ok ([b], v') ∧
    a.shape = [3] ∧ b.shape = [2] ∧ v.dims.map Dim.len = [2] :=
  ⟨_, _, _, _, rfl, rfl, rfl, rfl, rfl⟩

/-- C78 is false with two index arrays: the unread variable is sliced along each axis, the read one is not. -/
theorem C78_two_arrays_counterexample : ∃ (a b : Arr Nat) (v v' : Sourced Nat),
    run 0 seaFile sea [.slice [.ints [0, 3], .ints [0, 2]], .get] = .ok ([a], v) ∧
    run 0 seaFile sea [.load, .slice [.ints [0, 3], .ints [0, 2]], .get] = .ok ([b], v') ∧ a.shape = [2, 2] ∧ b.shape = [2] :=
  ⟨_, _, _, _, rfl, rfl, rfl, rfl⟩

/-- C78 is false for a dimension without a source index: sliced and read, it gives the first elements instead of those
asked for. -/
theorem C78_no_source_counterexample : ∃ (a b : Arr Nat) (v v' : Sourced Nat),
    run 0 ⟨[4], fun ix => ix.headD 0⟩ { dims := [⟨"x", some 4, some 4, false, false, none, none, none⟩] }
      [.slice [.slice ⟨some 2, some 4⟩], .get] = .ok ([a], v) ∧
    run 0 ⟨[4], fun ix => ix.headD 0⟩ { dims := [⟨"x", some 4, some 4, false, false, none, none, none⟩] }
      [.load, .slice [.slice ⟨some 2, some 4⟩], .get] = .ok ([b], v') ∧ a.elem [0] = 0 ∧ b.elem [0] = 2 :=
  ⟨_, _, _, _, rfl, rfl, rfl, rfl⟩

/-- C78 is false for removed values: what is seen afterwards depends on whether the variable had been read. -/
theorem C78_removed_counterexample : ∃ (a b : Arr Nat) (v v' : Sourced Nat),
    run 99 seaFile sea [.remove, .get] = .ok ([a], v) ∧ run 99 seaFile sea [.load, .remove, .get] = .ok ([b], v') ∧
    a.elem [1, 1] = 12 ∧ b.elem [1, 1] = 99 :=
  ⟨_, _, _, _, rfl, rfl, rfl, rfl⟩

end Ocgis.Props
