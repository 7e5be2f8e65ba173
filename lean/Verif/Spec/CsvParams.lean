import Verif.Spec.JsonParams
import Verif.Spec.TableIO
/-!
# Which entries of the parameters table a text file carries
-/
namespace Ticdat.Spec

/-- Exactly the entries of the parameters table that come back from a file of texts as they were: the name is text; a number is the
value of a parameter that may be a number and is not for datetimes, a datetime that of a parameter for datetimes, `None` that of a
nullable parameter for which the empty text is not valid; text is left alone by the adjustment after reading.  NaN, Booleans and
other objects never come back. -/
def TextParamKeeps (env : TextEnv) (params : Params) (k v : Cell) : Prop :=
  (∃ s, k = .str s) ∧
  match v with
  | .num _ => ∀ td, paramType params k = some td → td.datetime = false ∧ td.numberAllowed = true
  | .str s => ParamFixed env params k (.str s)
  | .none => ∃ td, paramType params k = some td ∧ td.nullable = true ∧ ¬ Valid env.parses td (.str "")
  | .dt _ => ∃ td, paramType params k = some td ∧ td.datetime = true
  | _ => False

end Ticdat.Spec
