import Verif.Py
/-!
# Files in the order of their times
-/
namespace Ocgis.Spec

/-- In the order of their ends. -/
def InOrderOfEnds {α} (last : α → Int) (l : List α) : Prop := l.Pairwise fun a b => last a ≤ last b

/-- Any two different files have different ends. -/
def EndsDiffer {α} (last : α → Int) (files : List α) : Prop := ∀ a ∈ files, ∀ b ∈ files, last a = last b → a = b

/-- The file is given, and no file given after it has its end. -/
def LastWithEnd {α} (last : α → Int) (files : List α) (f : α) : Prop :=
  ∃ before after, files = before ++ f :: after ∧ ∀ g ∈ after, last g ≠ last f

end Ocgis.Spec
