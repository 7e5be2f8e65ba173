import Verif.Spec.ExcelIO
import Verif.Spec.SqlCells
/-!
# Which cells an Excel file carries
-/
namespace Ticdat.Spec

/-- Exactly the cells that come back from an Excel file as they were: they come back from a json file, and in addition
* a number is not read as a date, and an infinity in an `.xlsx` file, which is text there, is read as one: without infinity flag by
  the argument `treat_inf_as_infinity`, or in a field for text and numbers under `automunge_multitype_fields`, or because a number as flag
  has replaced it; none of this matters for the infinity that `None` stands for;
* NaN is in an `.xls` file and not read as a date;
* `None` in an `.xls` file is in a field whose empty text is read as `None`;
* text does not read as an infinity, and is stored as it is or is the empty text in an `.xls` file in a field where it is
  neither read as `None` nor as an infinity;
* a Boolean is in an `.xlsx` file;
* a datetime in an `.xlsx` file is in a field where the infinity that `None` stands for is unique. -/
def XlKeeps (env : XlEnv) (cf : IOConf) (dv : Defaults) (o : XlOpts) (t f : String) (x : Cell) : Prop :=
  JsonKeeps env.text cf t f x ∧
    match x with
    | .num y => (cf.flag = .none ∧ NoneMeans env.text cf t f y) ∨
        (NoDates cf o t f ∧ ((y = .pinf ∨ y = .ninf) → o.kind = .xlsx →
          (cf.flag = .na ∧ o.treatInf = true) ∨ (∃ q, cf.flag = .num q) ∨
          (t ≠ "parameters" ∧ ReadAsNumber env.text cf t f (.str (infText y)))))
    | .nan => o.kind = .xls ∧ NoDates cf o t f
    | .none => o.kind = .xls → CsvNullField cf dv t f
    | .str s => (o.treatInf = true → cf.flag = .na →
          env.case.lower s.toList ≠ "inf".toList ∧ env.case.lower s.toList ≠ "-inf".toList) ∧
        (StoredText env o.kind s ∨ (s = "" ∧ o.kind = .xls ∧ ¬ CsvNullField cf dv t f ∧
          ¬ (t ≠ "parameters" ∧ cf.flag = .none ∧ ∃ i, NoneMeans env.text cf t f i)))
    | .bool _ => o.kind = .xlsx
    | .dt _ => o.kind = .xlsx → cf.flag = .none → ¬ NoneFlagAmbiguous env.text cf t f
    | .other _ => False

end Ticdat.Spec
