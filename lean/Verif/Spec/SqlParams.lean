import Verif.Spec.JsonParams
import Verif.Spec.SqlCells
/-!
# Which entries of the parameters table a SQLite database or a .sql file carries
-/
namespace Ticdat.Spec

/-- The text does not spell a Boolean. -/
def NoBoolWord (cenv : CaseEnv) (s : String) : Prop := cenv.lower s.toList ≠ "true".toList ∧ cenv.lower s.toList ≠ "false".toList

/-- Exactly the names of parameters that come back from a SQLite database (`asSql = false`) or a .sql file (`asSql = true`): `None`,
Booleans, numbers (in a .sql file finite ones), and text that does not spell a Boolean and is not spoilt by the .sql file. -/
def SqlNameKeeps (cenv : CaseEnv) (asSql : Bool) : Cell → Prop
  | .none => True
  | .bool _ => True
  | .num y => asSql = true → y ≠ .pinf ∧ y ≠ .ninf
  | .str s => NoBoolWord cenv s ∧ SqlFileOK asSql s
  | _ => False

/-- Exactly the entries of the parameters table that come back from a SQLite database or a .sql file as they were.  `None` and Booleans
have to be left alone by the adjustment after reading, and so has text, which must not spell a Boolean or be spoilt by the .sql file.
Finite numbers always come back; infinities come back from a .sql file, where they are texts, if the parameter may be a number and is
not for datetimes.  Datetimes need a parameter for datetimes. -/
def SqlParamKeeps (env : TextEnv) (cenv : CaseEnv) (params : Params) (asSql : Bool) (k v : Cell) : Prop :=
  SqlNameKeeps cenv asSql k ∧
  match v with
  | .none => ParamFixed env params k .none
  | .bool b => ParamFixed env params k (.bool b)
  | .num y => asSql = true → y = .pinf ∨ y = .ninf → ∀ td, paramType params k = some td → td.datetime = false ∧ td.numberAllowed = true
  | .str s => NoBoolWord cenv s ∧ SqlFileOK asSql s ∧ ParamFixed env params k (.str s)
  | .dt _ => ∃ td, paramType params k = some td ∧ td.datetime = true
  | _ => False

end Ticdat.Spec
