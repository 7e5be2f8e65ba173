import Verif.Model.PanFiles
import Verif.Spec.PgPan
import Verif.Spec.Names
import Verif.Spec.Utils
/-!
# Specification of whole `PanDat` objects in files
-/
namespace Ticdat.Spec

/-- A schema: table names that a factory accepts, every table with different fields, at least one, and defaults for fields
only; a factory with declared parameters has a parameters table with one key and one value. -/
structure PanSchemaOK (cenv : CaseEnv) (cf : IOConf) (schema : List (String × TabClass)) : Prop where
  names : goodTableNames cenv (schema.map (fun tc => tc.1.toList)) = true
  fields : ∀ tc ∈ schema, tc.2.fields.Nodup ∧ tc.2.fields ≠ [] ∧ (PyDict.keys tc.2.defaults).Nodup ∧
    ∀ f ∈ PyDict.keys tc.2.defaults, f ∈ tc.2.fields
  flag : ∀ q, cf.flag = .num q → 0 < q

/-- What is read, `u`, of what was handed to pandas, `w`: all fields are columns, in any order and perhaps with others, the
rows are in order, and each cell is what the format keeps (`store`) of the cell that was handed over, up to the kind of
null. -/
structure PanKept (store : Store) (t : String) (c : TabClass) (w u : Frame) : Prop where
  ok : FrameOK u
  index : u.index = []
  cols : ∀ f ∈ c.fields, Label.name f ∈ u.cols
  rows : ∃ stored, StoredRows (store t) c.fields (fieldRows c w) stored ∧ Pairwise2 (Pairwise2 SameOrNull) stored (fieldRows c u)

/-- A `PanDat` that survives in a format that keeps cells by `store`. -/
def PanSafe (env : TextEnv) (lower : String → String) (json : Bool) (cf : IOConf) (store : Store)
    (schema : List (String × TabClass)) (dat : PyDict String Frame) : Prop :=
  ∀ tc ∈ schema, ∃ v, PyDict.get? dat tc.1 = some v ∧ FrameOK v ∧ (∀ f ∈ tc.2.fields, Label.name f ∈ v.cols) ∧
    PgPanSafe env cf store tc.1 tc.2 v ∧ (json = true → PanNoNone env lower cf tc.1 tc.2 v)

/-- The library reads what was written for the tables. -/
def PandasKeeps (env : TextEnv) (cf : IOConf) (store : Store) (pandas : String → Frame → Option Frame)
    (schema : List (String × TabClass)) (dat : PyDict String Frame) : Prop :=
  ∀ tc ∈ schema, ∀ v w, PyDict.get? dat tc.1 = some v → panPreAny env cf tc.1 tc.2 v = some w →
    ∃ u, pandas tc.1 w = some u ∧ PanKept store tc.1 tc.2 w u

/-- The same object: the tables of the schema, each with its fields as columns in order, and the same rows in order, up to
the kind of null. -/
def SamePan (schema : List (String × TabClass)) (dat dat2 : PyDict String Frame) : Prop :=
  PyDict.keys dat2 = schema.map Prod.fst ∧
  ∀ tc ∈ schema, ∃ v rs, PyDict.get? dat tc.1 = some v ∧ Pairwise2 (Pairwise2 SameOrNull) (fieldRows tc.2 v) rs ∧
    PyDict.get? dat2 tc.1 = some (plainFrame tc.2.fields rs)

/-- `missing` lists the missing fields. -/
def ListsMissing (missing : TabClass → Frame → List String) : Prop :=
  ∀ c v, c.fields.Nodup → MissingFields c v (missing c v)

/-- A table ends with a row that has a value. -/
def EndsWithValue (c : TabClass) (v : Frame) : Prop :=
  ∀ r, (fieldRows c v).getLast? = some r → ∃ x ∈ r, ¬ Null x

/-- The file name spells the name of the table: with `.csv` in any case, and up to case and blanks for underscores. -/
def SpellsCsv (cenv : CaseEnv) (t f : String) : Prop :=
  unblank (cenv.lower f.toList) = cenv.lower t.toList ++ ".csv".toList

end Ticdat.Spec
