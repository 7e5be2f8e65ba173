import Verif.Model.MdbSchema
import Verif.Spec.MdbFile
/-!
# Specification of the schemas of new Access databases
-/
namespace Ticdat.Spec

/-- The named arguments are mappings from fields of tables to types. -/
def GoodFieldTypes (schema : List (String × TabClass)) (types : FieldTypes) : Prop :=
  ∀ t v, (t, v) ∈ types → ∃ c m, (t, c) ∈ schema ∧ v = some m ∧ ∀ f ty, (f, ty) ∈ m →
    f ∈ c.fields ∧ (ty = "text" ∨ ty = "double" ∨ ty = "int")

/-- The type asked for in the arguments. -/
def AskedType (types : FieldTypes) (t f ty : String) : Prop :=
  ∃ m, types.lookup t = some (some m) ∧ m.lookup f = some ty

/-- The type of the column of a field: the one asked for; if none, `text` in the parameters table of a schema with parameters, and
otherwise `text` for primary key fields and `double` for data fields. -/
def ColumnType (types : FieldTypes) (params : Params) (t : String) (c : TabClass) (f ty : String) : Prop :=
  AskedType types t f ty ∨ ((∀ ty', ¬ AskedType types t f ty') ∧
    ((t = "parameters" ∧ params ≠ [] ∧ ty = "text") ∨
      (¬ (t = "parameters" ∧ params ≠ []) ∧ ((f ∈ c.pks ∧ ty = "text") ∨ (f ∈ c.dfs ∧ ty = "double")))))

/-- An empty table with a column for each field, in order, with its type, and the primary key of the schema. -/
def NewTable (types : FieldTypes) (params : Params) (tc : String × TabClass) (p : String × MdbTab) : Prop :=
  p.1 = tc.1 ∧ p.2.tab.cols.map SqlCol.name = tc.2.fields ∧ p.2.tab.key = tc.2.pks ∧ p.2.tab.rows = [] ∧
    Pairwise2 (fun f ty => ColumnType types params tc.1 tc.2 f ty) tc.2.fields p.2.types

/-- The path ends as that of an Access file does. -/
def AccessPath (path : String) : Prop :=
  ∃ stem : List Char, path.toList = stem ++ ".mdb".toList ∨ path.toList = stem ++ ".accdb".toList

/-- A new file can be made under this path. -/
def CanMake (host : MdbHost) (path : String) : Prop :=
  ((∃ stem : List Char, path.toList = stem ++ ".mdb".toList) ∧ host.pypyodbc = true ∧ host.windows = true) ∨
    ((∃ stem : List Char, path.toList = stem ++ ".accdb".toList) ∧ host.blank = true)

end Ticdat.Spec
