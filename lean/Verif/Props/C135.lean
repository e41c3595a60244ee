import Verif.Proofs.OcgLogging
/-!
# C135: Messages, warnings and errors through the logger
-/
namespace Ocgis.Props
open Spec Ocgis.OcgLogging Proofs.OcgLogging

/-- Whatever was configured before: an exception given is raised, but for a warning, which never raises; without one nothing is raised. -/
theorem C135_raised (suppress : Bool) (history : List LogOp) (c : LogCall) :
    (¬ IsWarning c → (emit suppress (after history) c).raised = c.exc) ∧ (IsWarning c → (emit suppress (after history) c).raised = none) := by
  constructor
  · intro h
    have h' : ¬ c.level = warnLevel := h
    simp only [emit, excOf, if_neg h']
  · intro h
    have h' : c.level = warnLevel := h
    simp only [emit, if_pos h']

example : (emit true (after [.configure true false 20 none 20, .shutdown]) ⟨some "m", 20, none, none, some ⟨"ValueError", "bad"⟩, false⟩).raised =
    some ⟨"ValueError", "bad"⟩ := by decide +kernel

/-- Only the last thing a logger was told matters: after histories that end alike every call does the same. -/
theorem C135_history (suppress : Bool) (h h' : List LogOp) (c : LogCall) (he : EndAlike h h') :
    emit suppress (after h) c = emit suppress (after h') c := by
  rcases last_cases h with rfl | ⟨i, o, rfl⟩ <;> rcases last_cases h' with rfl | ⟨i', o', rfl⟩
  · rfl
  · simp [EndAlike] at he
  · simp [EndAlike] at he
  · simp only [EndAlike, List.getLast?_append, List.getLast?_singleton, Option.some_or, Option.some.injEq] at he
    subst he
    rw [after_snoc, after_snoc]
    exact emit_alike _ _ _ _ (apply_alike _ _ _)

example : EndAlike [.configure true true 10 (some 1) 0, .configure false false 20 none 20] [.configure false false 20 none 20] ∧
    after [.configure true true 10 (some 1) 0, .configure false false 20 none 20] ≠ after [.configure false false 20 none 20] := by
  exact ⟨rfl, by decide +kernel⟩

/-- A warning is issued exactly if warnings are not suppressed or it is forced: the exception given, or one with the message; nothing else is. -/
theorem C135_warned (suppress : Bool) (s : LogState) (c : LogCall) :
    (IsWarning c → (suppress = false ∨ c.force = true) → (emit suppress s c).warned = some (c.exc.getD ⟨"OcgWarning", c.msg.getD "None"⟩)) ∧
    ((¬ IsWarning c ∨ (suppress = true ∧ c.force = false)) → (emit suppress s c).warned = none) := by
  constructor
  · intro h hs
    have h' : c.level = warnLevel := h
    simp only [emit, excOf, str, h', if_pos, hs, and_self]
  · intro h
    refine if_neg ?_
    rintro ⟨h1, h2⟩
    rcases h with h | ⟨h3, h4⟩
    · exact h h1
    · rw [h3, h4] at h2
      simp at h2

example : (emit true fresh ⟨some "m", 30, none, none, none, true⟩).warned = some ⟨"OcgWarning", "m"⟩ ∧
    (emit true fresh ⟨some "m", 30, none, none, none, false⟩).warned = none := by decide +kernel

/-- The callback of the last configuration gets every message at or above its level, without alias; below it gets none, and neither does one of an
earlier configuration. -/
theorem C135_callback (suppress : Bool) (history : List LogOp) (toFile toStream : Bool) (level k : Nat) (f : Nat) (c : LogCall) (m : String)
    (hm : c.msg = some m) :
    (k ≤ c.level → (emit suppress (after (history ++ [.configure toFile toStream level (some f) k])) c).called = some (f, m)) ∧
    (c.level < k → (emit suppress (after (history ++ [.configure toFile toStream level (some f) k])) c).called = none) ∧
    (emit suppress (after (history ++ [.configure toFile toStream level none k])) c).called = none ∧
    (emit suppress (after (history ++ [.shutdown])) c).called = none := by
  have key : ∀ g, (after (history ++ [.configure toFile toStream level g k])).callback = g ∧
      (after (history ++ [.configure toFile toStream level g k])).callbackLevel = k := by
    intro g
    rw [after_snoc]
    simp only [applyOp]
    split <;> exact ⟨rfl, rfl⟩
  refine ⟨fun h => ?_, fun h => ?_, ?_, ?_⟩
  · simp only [emit, callback, (key (some f)).1, (key (some f)).2, if_pos h, hm]
  · have h' : ¬ k ≤ c.level := by omega
    simp only [emit, callback, (key (some f)).1, (key (some f)).2, if_neg h']
  · simp only [emit, callback, (key none).1]
  · rw [after_snoc]; rfl

example : (emit true (after [.configure true false 50 (some 7) 10]) ⟨some "m", 10, some "a", none, none, false⟩).called = some (7, "m") := by
  decide +kernel

/-- A message at or above the level of a logger with a file or a stream is in the log, with alias and geometry; one below is not; with neither nothing
is.  Missing: warnings and exceptions (`C135_warning_never`, `C135_exception_never`). -/
theorem C135_logged_partial (suppress : Bool) (history : List LogOp) (toFile toStream : Bool) (level k : Nat) (f : Option Nat) (c : LogCall)
    (he : c.exc = none) (hw : ¬ IsWarning c) (h0 : 0 < c.level) :
    ((toFile = true ∨ toStream = true) → level ≤ c.level →
      ∃ text, (emit suppress (after (history ++ [.configure toFile toStream level f k])) c).logged = some (c.level, text) ∧
        (c.alias = none → text = c.msg.getD "None") ∧
        (∀ a, c.alias = some a → c.ugid = none → text = "alias=" ++ a ++ ": " ++ c.msg.getD "None") ∧
        (∀ a u, c.alias = some a → c.ugid = some u → text = "alias=" ++ a ++ ", ugid=" ++ u ++ ": " ++ c.msg.getD "None")) ∧
    (c.level < level → (toFile = true ∨ toStream = true) → (emit suppress (after (history ++ [.configure toFile toStream level f k])) c).logged = none) ∧
    (toFile = false → toStream = false → (emit suppress (after (history ++ [.configure toFile toStream level f k])) c).logged = none) := by
  have hw' : ¬ c.level = warnLevel := hw
  have hz : ¬ c.level = 0 := by omega
  have hs : (toFile = true ∨ toStream = true) → after (history ++ [.configure toFile toStream level f k]) = ⟨false, level, f, k⟩ := by
    intro h
    rw [after_snoc, applyOp, if_neg]
    rintro ⟨h1, h2⟩
    rw [h1, h2] at h
    simp at h
  refine ⟨fun h hl => ⟨formatted c, ?_, ?_, ?_, ?_⟩, fun hl h => ?_, fun h1 h2 => ?_⟩
  · simp only [hs h, emit, excOf, if_neg hw', he, if_neg hz, entry, if_pos hl, Bool.false_eq_true, if_false]
  · intro ha; simp only [formatted, ha, str]
  · intro a ha hu; simp only [formatted, ha, hu, str]
  · intro a u ha hu; simp only [formatted, ha, hu, str]
  · have : ¬ level ≤ c.level := by omega
    simp only [hs h, emit, excOf, if_neg hw', he, if_neg hz, entry, if_neg this, Bool.false_eq_true, if_false]
  · rw [after_snoc, applyOp, if_pos ⟨h1, h2⟩]
    rfl

example : (emit true (after [.configure true false 20 none 20]) ⟨some "m", 20, some "tas", some "4", none, false⟩).logged =
    some (20, "alias=tas, ugid=4: m") := by decide +kernel

/-- The log never has the alias and the geometry of a warning, and not its message if an exception is given: they make no difference. -/
theorem C135_warning_never (suppress : Bool) (s : LogState) (msg msg' : Option String) (a a' u u' : Option String) (e : Exc) (force : Bool) :
    (emit suppress s ⟨msg, 30, a, u, some e, force⟩).logged = (emit suppress s ⟨msg', 30, a', u', some e, force⟩).logged ∧
    (emit suppress s ⟨msg, 30, a, u, none, force⟩).logged = (emit suppress s ⟨msg, 30, a', u', none, force⟩).logged := ⟨rfl, rfl⟩

example : (emit true ⟨false, 10, none, 0⟩ ⟨some "m", 30, some "tas", some "4", some ⟨"UserWarning", "w"⟩, false⟩).logged = some (30, "UserWarning: w") := by
  decide +kernel

/-- The log never has the exception that is raised: which one it is makes no difference; and the entry is an error, whatever the level given. -/
theorem C135_exception_never (suppress : Bool) (s : LogState) (c : LogCall) (e e' : Exc) (level' : Nat) (hc : ¬ IsWarning c) (hl : level' ≠ 30) :
    (emit suppress s { c with exc := some e }).logged = (emit suppress s { c with exc := some e', level := level' }).logged := by
  have hc' : ¬ c.level = warnLevel := hc
  have hl' : ¬ level' = warnLevel := hl
  simp only [emit, excOf, if_neg hc', if_neg hl', formatted]

example : (emit true ⟨false, 10, none, 0⟩ ⟨none, 20, none, none, some ⟨"ValueError", "bad"⟩, false⟩).logged = some (40, "None") := by decide +kernel

end Ocgis.Props
