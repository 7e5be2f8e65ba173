import Verif.Model.Ampl

/-!
# Specification: AMPL models with substitutions
-/
namespace Ticdat.Spec
open Ticdat

/-- A text with substitutions: literal texts, each followed by a label, and a last literal text. -/
structure AmplTemplate where
  segs : List (Text × Text)
  last : Text

/-- The text as the user writes it, a label in doubled braces. -/
def AmplTemplate.source (t : AmplTemplate) : Text :=
  t.segs.flatMap (fun s => s.1 ++ ['{', '{'] ++ s.2 ++ ['}', '}']) ++ t.last

/-- The text with the substitutions performed. -/
def AmplTemplate.filled (t : AmplTemplate) (value : Text → Text) : Text :=
  t.segs.flatMap (fun s => s.1 ++ value s.2) ++ t.last

/-- The literal texts. -/
def AmplTemplate.literals (t : AmplTemplate) : List Text := t.segs.map (·.1) ++ [t.last]

/-- The labels. -/
def AmplTemplate.labels (t : AmplTemplate) : List Text := t.segs.map (·.2)

/-- There are single braces in the text, but no doubled ones. -/
def SingleBraces (s : Text) : Prop := ¬ ['{', '{'] <:+: s ∧ ¬ ['}', '}'] <:+: s

/-- A name of a named argument. -/
def IsLabel (s : Text) : Prop := (∃ c r, s = c :: r ∧ c.isDigit = false) ∧ ∀ c ∈ s, c.isAlphanum = true ∨ c = '_'

end Ticdat.Spec
