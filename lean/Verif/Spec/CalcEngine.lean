import Verif.Model.CalcEngine

/-! Vocabulary for the statements about the calculation engine. -/

namespace Ocgis.Spec
open Ocgis Ocgis.CalcEngine

/-- A calculation on one variable at a time, or on several named variables. -/
def Ordinary (f : Func) : Prop := f.kind = .univariate ∨ ∃ names, f.kind = .multivariate names

/-- The name of the result for one of the data variables: that of the calculation, with the name of the variable if there are
several. -/
def resultName (alias : String) (data : List String) (v : String) : String :=
  match data with
  | [_] => alias
  | _ => alias ++ "_" ++ v

/-- What a calculation is to put into a field: one variable for each data variable, followed by its sample size if asked for, or one
variable computed from the named ones. -/
def results {γ : Type} (data : List String) (grouping : Option γ) (sample : Bool) (f : Func) : List (String × Origin γ) :=
  match f.kind with
  | .univariate =>
    data.flatMap fun v =>
      (resultName f.alias data v, ⟨f.func, [v], grouping, false⟩) ::
        if sample ∧ grouping ≠ none then [("n_" ++ resultName f.alias data v, ⟨f.func, [v], grouping, true⟩)] else []
  | .multivariate names => [(f.alias, ⟨f.func, names, grouping, false⟩)]
  | _ => []

/-- All results for a field grouped by its own times. -/
def allResults {τ γ : Type} (c : Config τ γ) (field : Field τ γ) : List (String × Origin γ) :=
  c.funcs.flatMap (results field.data (c.grouping.map (· field.times)) c.sampleSize)

/-- The calculations can be carried out on the field: there are data variables, the named variables exist, and sample sizes are not
asked for with several variables. -/
def Applicable {τ γ : Type} (c : Config τ γ) (field : Field τ γ) : Prop :=
  c.funcs ≠ [] ∧ field.data ≠ [] ∧
  ∀ f ∈ c.funcs, Ordinary f ∧
    ∀ names, f.kind = .multivariate names → names ≠ [] ∧ c.sampleSize = false ∧ ∀ n ∈ names, n ∈ field.data ∨ n ∈ field.others

/-- The names of the results differ from each other and from those of the variables that stay. -/
def NamesDiffer {τ γ : Type} (c : Config τ γ) (field : Field τ γ) : Prop :=
  ((allResults c field).map Prod.fst).Nodup ∧ ∀ n ∈ (allResults c field).map Prod.fst, n ∉ field.others

/-- The field with the results instead of the data variables. -/
def finished {τ γ : Type} (c : Config τ γ) (field : Field τ γ) : Field τ γ :=
  { field with
    data := (allResults c field).map Prod.fst
    outs := allResults c field
    grouped := c.grouping.map (· field.times) }

/-- Fields of the same name have the same times. -/
def SameTimes {τ γ : Type} (fields : List (Field τ γ)) : Prop :=
  ∀ a ∈ fields, ∀ b ∈ fields, a.name = b.name → a.times = b.times

/-- Two calculations by year; times are counted in months. -/
def byYear : Config (List Nat) (List Nat) :=
  { grouping := some (fun ts => ts.map (· / 12))
    daily := fun ts => ts.map (· % 12)
    funcs := [⟨.univariate, "mean", "average"⟩, ⟨.multivariate ["tas", "rhs"], "heat_index", "heat"⟩] }

/-- Calculations on every time step. -/
def everyStep (funcs : List Func) : Config (List Nat) (List Nat) :=
  { grouping := none, daily := fun ts => ts.map (· % 12), funcs := funcs }

/-- A field with two data variables. -/
def weather (times : List Nat) : Field (List Nat) (List Nat) :=
  { name := "weather", times := times, data := ["tas", "rhs"], others := ["time", "x", "y"] }

end Ocgis.Spec
