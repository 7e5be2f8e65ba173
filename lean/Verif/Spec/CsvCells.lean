import Verif.Spec.JsonCells
/-!
# Which cells a csv file carries
-/
namespace Ticdat.Spec

/-- Exactly the cells that come back from a csv file as they were: they come back from a json file, and in addition the text in
the file is read as the cell.  Numbers and NaN have to be in fields that are read as numbers, except for the infinity that `None`
stands for, which is written as the empty text; `None` has to be in a field whose empty text is read as `None`; text must not read as
a number in a field that is read as numbers, and the empty text must not be read as `None` or as an infinity.  Booleans never come
back. -/
def CsvKeeps (env : TextEnv) (cf : IOConf) (dv : Defaults) (t f : String) (x : Cell) : Prop :=
  JsonKeeps env cf t f x ∧
    match x with
    | .num y => CsvNumField cf dv t f ∨ (cf.flag = .none ∧ NoneMeans env cf t f y)
    | .nan => CsvNumField cf dv t f
    | .none => CsvNullField cf dv t f
    | .str s => (CsvNumField cf dv t f → env.float s = none) ∧
        (s = "" → ¬ CsvNullField cf dv t f ∧ ¬ (t ≠ "parameters" ∧ cf.flag = .none ∧ ∃ i, NoneMeans env cf t f i))
    | .dt d => (CsvNumField cf dv t f → env.float (env.text (.dt d)) = none) ∧
        (cf.flag = .none → ¬ NoneFlagAmbiguous env cf t f)
    | .bool _ => False
    | .other _ => False

end Ticdat.Spec
