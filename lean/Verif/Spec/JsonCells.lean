import Verif.Spec.TableIO
import Verif.Spec.DbIO
/-!
# Which cells a json file carries
-/
namespace Ticdat.Spec

/-- Reading takes the cell for a datetime: the field is one for datetimes and the cell reads as one. -/
def ReadAsDate (env : TextEnv) (cf : IOConf) (t f : String) (x : Cell) : Prop :=
  (∃ td, typeOf cf.types t f = some td ∧ td.datetime = true) ∧ ((∃ b, x = .bool b) ∨ ∃ s, x = .str s) ∧ ∃ d, env.date x = some d

/-- Reading takes the cell for a number: `automunge_multitype_fields` is set, the field is one for numbers and text and not for
datetimes, and the cell is a Boolean or text that reads as a number. -/
def ReadAsNumber (env : TextEnv) (cf : IOConf) (t f : String) (x : Cell) : Prop :=
  cf.automunge = true ∧ (∃ td, typeOf cf.types t f = some td ∧ td.datetime = false ∧ td.numberAllowed = true ∧ td.strings ≠ .oneOf []) ∧
    ((∃ b, x = .bool b) ∨ ∃ s y, x = .str s ∧ env.float s = some y)

/-- Exactly the cells that come back from a json file as they were.  Datetimes do in fields for datetimes, objects json does not know
never do.  Others do if reading takes them neither for a datetime nor for a number and the infinity flag is not in the way: with a
number as flag, numbers have to be infinite or strictly between minus the flag and the flag; with the flag `None`, the field must not
allow two infinities, and null must not stand for one.  In a table called parameters of a schema without parameters, cells are not changed
on reading, and so those that are not changed on writing come back. -/
def JsonKeeps (env : TextEnv) (cf : IOConf) (t f : String) (x : Cell) : Prop :=
  match x with
  | .other _ => False
  | .dt _ => t ≠ "parameters" ∧ ∃ td, typeOf cf.types t f = some td ∧ td.datetime = true
  | x =>
    (t ≠ "parameters" → ¬ ReadAsDate env cf t f x ∧ ¬ ReadAsNumber env cf t f x) ∧
    match cf.flag with
    | .na => True
    | .num q => ∀ y, x = .num y →
        if t = "parameters" then ∃ a, y = .fin a ∧ -q ≤ a ∧ a ≤ q
        else y = .pinf ∨ y = .ninf ∨ ∃ a, y = .fin a ∧ -q < a ∧ a < q
    | .none => ¬ NoneFlagAmbiguous env cf t f ∧
        if t = "parameters" then ∀ i, x = .num i → ¬ NoneMeans env cf t f i
        else x = .none → ∀ i, ¬ NoneMeans env cf t f i

end Ticdat.Spec
