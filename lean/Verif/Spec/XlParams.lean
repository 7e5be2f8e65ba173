import Verif.Spec.JsonParams
import Verif.Spec.ExcelIO
/-!
# Which entries of the parameters table an Excel file carries
-/
namespace Ticdat.Spec

/-- Exactly the names of parameters that come back from an Excel file: from an `.xls` file text and numbers; from an `.xlsx` file
`None`, Booleans, finite numbers and text that is stored as it is. -/
def XlNameKeeps (env : XlEnv) : XlKind → Cell → Prop
  | .xls, .str _ => True
  | .xls, .num _ => True
  | .xlsx, .none => True
  | .xlsx, .bool _ => True
  | .xlsx, .num y => y ≠ .pinf ∧ y ≠ .ninf
  | .xlsx, .str s => StoredText env .xlsx s
  | _, _ => False

/-- Exactly the entries of the parameters table that come back from an Excel file as they were.  Text has to be left alone by the
adjustment after reading, and in an `.xlsx` file to be stored as it is.  `None` in an `.xls` file is that of a nullable parameter for
which the empty text is not valid.  `None` and Booleans in an `.xlsx` file have to be left alone; Booleans do not come back from `.xls`
files.  Numbers come back, but an infinity in an `.xlsx` file, which is text there, only if the parameter may be a number and is not
for datetimes.  Datetimes need a parameter for datetimes. -/
def XlParamKeeps (env : XlEnv) (params : Params) (kind : XlKind) (k v : Cell) : Prop :=
  XlNameKeeps env kind k ∧
  match v with
  | .none => match kind with
    | .xls => ∃ td, paramType params k = some td ∧ td.nullable = true ∧ ¬ Valid env.text.parses td (.str "")
    | .xlsx => ParamFixed env.text params k .none
  | .bool b => kind = .xlsx ∧ ParamFixed env.text params k (.bool b)
  | .num y => kind = .xlsx → y = .pinf ∨ y = .ninf → ∀ td, paramType params k = some td → td.datetime = false ∧ td.numberAllowed = true
  | .str s => (kind = .xlsx → StoredText env .xlsx s) ∧ ParamFixed env.text params k (.str s)
  | .dt _ => ∃ td, paramType params k = some td ∧ td.datetime = true
  | _ => False

end Ticdat.Spec
