import Verif.Spec.SqliteIO
import Verif.Spec.JsonCells
/-!
# Which cells a SQLite database or a .sql file carries
-/
namespace Ticdat.Spec

/-- How a .sql file spells an infinity. -/
def infText (y : XNum) : String := if y = .pinf then "inf" else "-inf"

/-- Exactly the cells that come back from a SQLite database (`asSql = false`) or a .sql file (`asSql = true`) as they were, in a table
with primary key (`keyed = true`) or without.

Booleans come back from tables with primary key only.  `None` must not stand for an infinity.  Text must be read as text: neither as
a datetime, a number, a Boolean or an infinity, nor stored as a number by the column, nor spoilt by the .sql file.  Datetimes need
a field for datetimes and must not be stored as numbers.  Numbers have to be within the infinity flag.  In a .sql file infinities are texts,
which come back without an infinity flag, or if writing has replaced them by the flag, or in fields for text and numbers under
`automunge_multitype_fields`.  In tables with primary key the infinity that `None` stands for has to be unique. -/
def SqlKeeps (env : TextEnv) (senv : SqlEnv) (cenv : CaseEnv) (cf : IOConf) (dv : Defaults) (asSql keyed : Bool)
    (t f : String) (x : Cell) : Prop :=
  match x with
  | .bool _ => keyed = true
  | .nan => False
  | .other _ => False
  | .none => (keyed = true → cf.flag = .none → ¬ NoneFlagAmbiguous env cf t f) ∧
      (t ≠ "parameters" → cf.flag = .none → ¬ NoneFlagAmbiguous env cf t f ∧ ∀ i, ¬ NoneMeans env cf t f i)
  | .str s => (keyed = true → cf.flag = .none → ¬ NoneFlagAmbiguous env cf t f) ∧
      (t ≠ "parameters" → ¬ ReadAsDate env cf t f (.str s) ∧ ¬ ReadAsNumber env cf t f (.str s)) ∧
      NoSqlWord cenv cf s ∧ (SqlNumColumn cf dv t f → senv.num s = none) ∧ SqlFileOK asSql s
  | .dt d => (keyed = true → cf.flag = .none → ¬ NoneFlagAmbiguous env cf t f) ∧
      (t ≠ "parameters" ∧ ∃ td, typeOf cf.types t f = some td ∧ td.datetime = true) ∧
      NoSqlWord cenv cf (env.text (.dt d)) ∧ (SqlNumColumn cf dv t f → senv.num (env.text (.dt d)) = none)
  | .num y =>
    (match cf.flag with
      | .na => True
      | .num q =>
        if t = "parameters" then keyed = true → ∃ a, y = .fin a ∧ -q ≤ a ∧ a ≤ q
        else y = .pinf ∨ y = .ninf ∨ ∃ a, y = .fin a ∧ -q < a ∧ a < q
      | .none => keyed = true → ¬ NoneFlagAmbiguous env cf t f ∧ (t = "parameters" → ¬ NoneMeans env cf t f y)) ∧
    (asSql = true → y = .pinf ∨ y = .ninf →
      cf.flag = .na ∨ (keyed = true ∧ ((∃ q, cf.flag = .num q) ∨ NoneMeans env cf t f y)) ∨
      (t ≠ "parameters" ∧ ReadAsNumber env cf t f (.str (infText y))))

/-- How numbers are spelled: `float("inf")` and `float("-inf")` are the infinities. -/
structure FloatInf (env : TextEnv) : Prop where
  pinf : env.float "inf" = some (some .pinf)
  ninf : env.float "-inf" = some (some .ninf)

end Ticdat.Spec
