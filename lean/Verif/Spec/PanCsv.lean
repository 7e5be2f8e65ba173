import Verif.Model.PanCsv
import Verif.Spec.PanFiles
/-!
# Specification of the types of columns in csv files
-/
namespace Ticdat.Spec

/-- The field is declared as text: its type allows strings, and neither numbers nor datetimes. -/
def TextField (cf : IOConf) (t f : String) : Prop :=
  ∃ td, typeOf cf.types t f = some td ∧ td.datetime = false ∧ td.numberAllowed = false ∧ td.strings ≠ .oneOf []

/-- A field of the parameters table of a factory with declared parameters. -/
def CsvParamField (cf : IOConf) (t : String) (c : TabClass) (f : String) : Prop :=
  t = "parameters" ∧ cf.params ≠ [] ∧ (c.pks.head? = some f ∨ c.dfs.head? = some f)

/-- What pandas has to do: an empty text is a missing value, and the text of a number is a number. -/
structure CsvLibOK (env : TextEnv) (lib : PanCsvLib) : Prop where
  empty : lib.na "" = true
  number : ∀ x, lib.na (env.text (.num x)) = false ∧ lib.number (env.text (.num x)) = some x

/-- A text that is neither a missing value nor a number nor a Boolean for pandas. -/
def PlainText (lib : PanCsvLib) (s : String) : Prop := lib.na s = false ∧ lib.number s = none ∧ lib.bool s = none

/-- The values of a field that csv keeps.  A field declared as text: texts that are no missing values.  Another field:
numbers; or texts, one of them plain; or Booleans; or, in a field of datetimes, datetimes.  And nulls. -/
def CsvColumn (env : TextEnv) (lib : PanCsvLib) (cf : IOConf) (t f : String) (col : List Cell) : Prop :=
  (TextField cf t f ∧ ∀ x ∈ col, Null x ∨ ∃ s, x = .str s ∧ lib.na s = false) ∨
  (¬ TextField cf t f ∧
    ((∀ x ∈ col, Null x ∨ ∃ y, x = .num y) ∨
     ((∀ x ∈ col, Null x ∨ ∃ s, x = .str s ∧ lib.na s = false) ∧ ∃ s, .str s ∈ col ∧ PlainText lib s) ∨
     ((∀ x ∈ col, Null x ∨ ∃ b, x = .bool b ∧ lib.na (env.text x) = false ∧ lib.number (env.text x) = none ∧
        lib.bool (env.text x) = some b) ∧ ¬ ∀ x ∈ col, Null x) ∨
     ((∃ td, typeOf cf.types t f = some td ∧ td.datetime = true) ∧
      ∀ x ∈ col, Null x ∨ ∃ d, x = .dt d ∧ PlainText lib (env.text x) ∧ env.date (.str (env.text x)) = some d)))

/-- A parameter that csv keeps: its name is text, its value is valid, and is null, or a number, or text (no missing value, and
no number where the parameter may be one), or, if it has to be one, a datetime. -/
def CsvPanParam (env : TextEnv) (lib : PanCsvLib) (params : Params) (k v : Cell) : Prop :=
  (∃ s, k = .str s ∧ lib.na s = false) ∧ ∃ td, paramType params k = some td ∧ Valid env.parses td v ∧
    (Null v ∨
      (td.datetime = false ∧ ((∃ x, v = .num x) ∨ ∃ s, v = .str s ∧ lib.na s = false ∧ (td.numberAllowed = true → env.float s = none))) ∨
      (td.datetime = true ∧ ∃ d, v = .dt d ∧ lib.na (env.text v) = false ∧ env.date (.str (env.text v)) = some d))

/-- A table of a `PanDat` that csv keeps. -/
def CsvPanTable (env : TextEnv) (lib : PanCsvLib) (cf : IOConf) (t : String) (c : TabClass) (v : Frame) : Prop :=
  (t = "parameters" ∧ cf.params ≠ [] → ∃ k f, c.pks = [k] ∧ c.dfs = [f] ∧
    ∀ r ∈ fieldRows c v, ∃ x y, r = [x, y] ∧ CsvPanParam env lib cf.params x y) ∧
  (¬ (t = "parameters" ∧ cf.params ≠ []) → ∀ f ∈ c.fields, CsvColumn env lib cf t f (column v f)) ∧
  (t = "parameters" → cf.params = [] → ∀ f ∈ c.fields, ∀ d, .dt d ∉ column v f) ∧
  (t ≠ "parameters" → ∀ f ∈ c.fields, Survives env cf t f (column v f))

/-- What is read for a cell `x` of a field that is read as text: NaN for a null and for a text that is a missing value, the
text otherwise. -/
def TextKept (lib : PanCsvLib) (env : TextEnv) (x y : Cell) : Prop :=
  (Null x → y = .nan) ∧ (¬ Null x → lib.na (env.text x) = true → y = .nan) ∧
  (¬ Null x → lib.na (env.text x) = false → y = .str (env.text x))

end Ticdat.Spec
