import Verif.Proofs.SeasonLabel
/-!
# C134: The name of a grouping by seasons
-/
namespace Ocgis.Props
open Spec Ocgis.SeasonLabel Proofs.SeasonLabel

/-- Groupings whose seasons are runs of two to twelve months have a name, and if two have the same name they have the same seasons in the same order
and the same flag.  Missing: seasons of one month and of months that are not in a row (`C134_single_never`), and where the flag is. -/
theorem C134_name_partial (g g' : List Part) (h : ∀ ms ∈ seasonsOf g, MonthRun ms) (h' : ∀ ms ∈ seasonsOf g', MonthRun ms) :
    (∃ name, icclimMode g = .ok name) ∧ (icclimMode g = icclimMode g' → seasonsOf g = seasonsOf g' ∧ flagOf g = flagOf g') := by
  obtain ⟨names, hn, hm⟩ := mode_eq g fun ms hms => run_months ms (h ms hms)
  obtain ⟨names', hn', hm'⟩ := mode_eq g' fun ms hms => run_months ms (h' ms hms)
  refine ⟨⟨_, hm⟩, fun e => ?_⟩
  rw [hm, hm'] at e
  have hg := names_good _ _ hn h
  have hg' := names_good _ _ hn' h'
  obtain ⟨h1, h2⟩ := ending_inj _ _ g g' (joined_space _ hg) (joined_space _ hg') (Except.ok.inj e)
  have := joined_inj _ _ hg hg' h1
  subst this
  exact ⟨names_inj _ _ hn h _ hn' h', h2⟩

example : MonthRun [12, 1, 2] ∧ MonthRun [6, 7, 8] ∧
    icclimMode [.season [12, 1, 2], .unique, .season [6, 7, 8]] = .ok "DJF-JJA (unique)".toList :=
  ⟨⟨11, 3, by decide⟩, ⟨5, 3, by decide⟩, by decide +kernel⟩

/-- The name has for every season the first letters of the names of its months, with hyphens between seasons, then the flag. -/
theorem C134_letters (g : List Part) (hm : ∀ ms ∈ seasonsOf g, ∀ m ∈ ms, 1 ≤ m ∧ m ≤ 12) :
    ∃ flag, icclimMode g = .ok (List.intercalate ['-'] ((seasonsOf g).map (List.map initial)) ++ flag) ∧
      (flagOf g = none → flag = []) ∧ (flagOf g = some .unique → flag = " (unique)".toList) ∧ (flagOf g = some .year → flag = " (year)".toList) := by
  obtain ⟨names, hn, he⟩ := mode_eq g hm
  refine ⟨ending (flagOf g), ?_, fun h => by rw [h]; rfl, fun h => by rw [h]; rfl, fun h => by rw [h]; rfl⟩
  rw [he, names_initial _ _ hn hm, joined_eq]

example : icclimMode [.season [9, 10, 11], .season [3, 5], .year] = .ok "SON-MM (year)".toList := by decide +kernel

/-- Groupings with a season of one month: January, June and July, March and May, April and August are not told apart, whatever the other seasons. -/
theorem C134_single_never (before after : List Part) (a b : Nat) (hab : (a, b) ∈ [(1, 6), (6, 7), (3, 5), (4, 8)]) :
    icclimMode (before ++ .season [a] :: after) = icclimMode (before ++ .season [b] :: after) := by
  have hl : letters [a] = letters [b] := by
    simp only [List.mem_cons, Prod.mk.injEq, List.not_mem_nil, or_false] at hab
    rcases hab with ⟨rfl, rfl⟩ | ⟨rfl, rfl⟩ | ⟨rfl, rfl⟩ | ⟨rfl, rfl⟩ <;> rfl
  have key : ∀ (l : List Part) (f : Option Part), collect f (l ++ .season [a] :: after) = collect f (l ++ .season [b] :: after) := by
    intro l
    induction l with
    | nil => intro f; simp only [List.nil_append, collect, hl]
    | cons p l ih => intro f; cases p <;> simp only [List.cons_append, collect, ih]
  simp only [icclimMode, key]

example : icclimMode [.season [6]] = .ok ['J'] ∧ icclimMode [.season [7]] = .ok ['J'] := by decide +kernel

/-- Of several flags only the last is in the name, and its place is not. -/
theorem C134_flags_never (ms : List Nat) (before after : List Part) (p : Part) (hp : p = .unique ∨ p = .year) (hl : flagOf after ≠ none)
    (hm : ∀ ms ∈ seasonsOf (before ++ after), ∀ m ∈ ms, 1 ≤ m ∧ m ≤ 12) :
    icclimMode (before ++ p :: after) = icclimMode (before ++ after) ∧
    icclimMode [p, .season ms] = icclimMode [.season ms, p] := by
  have hs : ∀ l : List Part, seasonsOf (l ++ p :: after) = seasonsOf (l ++ after) := by
    intro l
    induction l with
    | nil => rcases hp with rfl | rfl <;> rfl
    | cons q l ih => cases q <;> simp only [List.cons_append, seasonsOf, ih]
  have hf : ∀ l : List Part, flagOf (l ++ p :: after) = flagOf (l ++ after) := by
    intro l
    induction l with
    | nil =>
      rw [List.nil_append, List.nil_append, flag_cons p hp]
      cases h : flagOf after with
      | none => exact absurd h hl
      | some q => rfl
    | cons q l ih =>
      cases q with
      | unique => rw [List.cons_append, List.cons_append, flag_cons _ (Or.inl rfl), flag_cons _ (Or.inl rfl), ih]
      | year => rw [List.cons_append, List.cons_append, flag_cons _ (Or.inr rfl), flag_cons _ (Or.inr rfl), ih]
      | season q => rw [List.cons_append, List.cons_append, flag_cons_season, flag_cons_season, ih]
  constructor
  · obtain ⟨n1, h1, e1⟩ := mode_eq (before ++ p :: after) (by rw [hs]; exact hm)
    obtain ⟨n2, h2, e2⟩ := mode_eq (before ++ after) hm
    rw [hs] at h1
    have same : ∀ {l a b}, Names l a → Names l b → a = b := by
      intro l a b ha
      induction ha generalizing b with
      | nil => intro hb; cases hb; rfl
      | cons hc _ ih =>
        intro hb
        cases hb with
        | cons hc' ht => rw [hc] at hc'; cases hc'; rw [ih ht]
    rw [e1, e2, hf, same h1 h2]
  · rcases hp with rfl | rfl <;> simp only [icclimMode, collect] <;> cases letters ms <;> rfl

example : icclimMode [.year, .season [3, 4], .unique] = .ok "MA (unique)".toList ∧ icclimMode [.unique, .season [3, 4]] = .ok "MA (unique)".toList := by
  decide +kernel

/-- A month that is none is refused. -/
theorem C134_month (g : List Part) (h : ∃ ms ∈ seasonsOf g, ∃ m ∈ ms, m < 1 ∨ 12 < m) : icclimMode g = .error .keyError := by
  simp only [icclimMode, collect_error g none h]

example : icclimMode [.season [12, 13]] = .error .keyError := by decide +kernel

end Ocgis.Props
