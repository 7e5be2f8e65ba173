import Verif.Model.ExcelIO
import Verif.Spec.TableIO
/-!
# Specification of Excel round trips
-/
namespace Ticdat.Spec

/-- What the libraries have to do for Excel files to carry cells: as for all text files; infinities have the texts `inf`
and `-inf`; these and the texts of datetimes are stored as they are, and the latter do not read as infinities. -/
structure XlTextOK (env : XlEnv) : Prop extends TextOK env.text where
  pinf : env.text.text (.num .pinf) = "inf"
  ninf : env.text.text (.num .ninf) = "-inf"
  infText : env.xlsxText "inf" = some (.str "inf") ∧ env.xlsxText "-inf" = some (.str "-inf")
  infLower : env.case.lower "inf".toList = "inf".toList ∧ env.case.lower "-inf".toList = "-inf".toList
  dtText : ∀ d, env.text.text (.dt d) ≠ "" ∧
    env.xlsxText (env.text.text (.dt d)) = some (.str (env.text.text (.dt d))) ∧
    env.case.lower (env.text.text (.dt d)).toList ≠ "inf".toList ∧
    env.case.lower (env.text.text (.dt d)).toList ≠ "-inf".toList

/-- Text that an Excel file stores and reads as it is: not empty, and for `.xlsx` files no text the library takes for
something else (formulas, links). -/
def StoredText (env : XlEnv) (kind : XlKind) (s : String) : Prop :=
  s ≠ "" ∧ (kind = .xlsx → env.xlsxText s = some (.str s))

/-- Numbers of the field are not read as dates: the file is no `.xls` file, or the field is not for datetimes. -/
def NoDates (cf : IOConf) (o : XlOpts) (t f : String) : Prop :=
  o.kind = .xls → ∀ td, typeOf cf.types t f = some td → td.datetime = false

/-- A cell outside the adjusted parameters table that survives an Excel file: it survives a json file, and
* a number is not read as a date;
* an infinity in an `.xlsx` file is read as one, by the argument `treat_inf_as_infinity` or the infinity flag;
* NaN is in an `.xls` file and not read as a date;
* `None` in an `.xls` file is in a field whose empty text is read as `None`;
* text does not read as an infinity, and is stored as it is or is the empty text in an `.xls` file in a field where it
  stands for nothing else;
* a Boolean is in an `.xlsx` file. -/
def XlSafe (env : XlEnv) (cf : IOConf) (dv : Defaults) (o : XlOpts) (t f : String) (x : Cell) : Prop :=
  JsonSafe env.text cf t f x ∧
    match x with
    | .num y => NoDates cf o t f ∧ ((y = .pinf ∨ y = .ninf) → o.kind = .xlsx → match cf.flag with
      | .na => o.treatInf = true
      | .num _ => True
      | .none => ∃ td, typeOf cf.types t f = some td ∧ ¬ Valid env.text.parses td .none)
    | .nan => o.kind = .xls ∧ NoDates cf o t f
    | .none => o.kind = .xls → CsvNullField cf dv t f
    | .str s => (o.treatInf = true → cf.flag = .na →
          env.case.lower s.toList ≠ "inf".toList ∧ env.case.lower s.toList ≠ "-inf".toList) ∧
        (StoredText env o.kind s ∨ (s = "" ∧ o.kind = .xls ∧ ¬ CsvNullField cf dv t f ∧ cf.flag ≠ .none))
    | .bool _ => o.kind = .xlsx
    | .dt _ => True
    | .other _ => False

/-- An entry of the parameters table that survives an Excel file. -/
def XlParam (env : XlEnv) (params : Params) (kind : XlKind) (k v : Cell) : Prop :=
  (∃ s, k = .str s ∧ StoredText env kind s) ∧
    match v with
    | .num _ => ∀ td, paramType params k = some td → Valid env.text.parses td v
    | .str s => StoredText env kind s ∧ ParamAsIs env.text params k v
    | .none => match kind with
      | .xls => ∃ td, paramType params k = some td ∧ Valid env.text.parses td v ∧ ¬ Valid env.text.parses td (.str "")
      | .xlsx => ParamAsIs env.text params k v
    | .dt _ => ∃ td, paramType params k = some td ∧ td.datetime = true
    | .bool _ => kind = .xlsx ∧ ParamAsIs env.text params k v
    | _ => False

/-- A cell that leaves a trace in a sheet: not `None`, not the empty text, and not an infinity where infinities are
written as `None`. -/
def Visible (cf : IOConf) (x : Cell) : Prop :=
  x ≠ .none ∧ x ≠ .str "" ∧ (cf.flag = .none → x ≠ .num .pinf ∧ x ≠ .num .ninf)

end Ticdat.Spec
