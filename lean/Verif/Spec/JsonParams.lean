import Verif.Spec.JsonCells
import Verif.Spec.CellIO
/-!
# Which entries of the parameters table a json file carries
-/
namespace Ticdat.Spec

/-- A cell that is not taken for a number where text is: no Boolean, and no text that reads as a number. -/
def NoNumberText (env : TextEnv) (v : Cell) : Prop := (∀ b, v ≠ .bool b) ∧ ∀ s, v = .str s → env.float s = none

/-- Exactly the values that the adjustment after reading leaves alone: the empty text is not taken for `None`, the value of a
parameter for datetimes does not read as one unless it is one, and the value of another parameter that may be a number (as every
parameter without type may) is not taken for one. -/
def ParamFixed (env : TextEnv) (params : Params) (k v : Cell) : Prop :=
  match paramType params k with
  | none => NoNumberText env v
  | some td => ¬ (td.nullable = true ∧ v = .str "" ∧ ¬ Valid env.parses td v) ∧
      (td.datetime = true → (∃ d, v = .dt d) ∨ (∃ y, v = .num y) ∨ v = .nan ∨ env.date v = none) ∧
      (td.datetime = false → td.numberAllowed = true → NoNumberText env v)

/-- Exactly the entries of the parameters table that come back from a json file as they were: the name is text, a number, a Boolean or
`None`; the value is a datetime of a parameter for datetimes, or text, a number, a Boolean or `None` that is left alone. -/
def JsonParamKeeps (env : TextEnv) (params : Params) (k v : Cell) : Prop :=
  (k ≠ .nan ∧ (∀ d, k ≠ .dt d) ∧ ∀ i, k ≠ .other i) ∧
  match v with
  | .other _ => False
  | .nan => False
  | .dt _ => ∃ td, paramType params k = some td ∧ td.datetime = true
  | v => ParamFixed env params k v

end Ticdat.Spec
