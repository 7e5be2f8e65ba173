import Verif.Model.MdbFile
import Verif.Spec.SqlFile
import Verif.Spec.Utils
/-!
# Specification of Access databases with a schema of their own
-/
namespace Ticdat.Spec

/-- The table can take the rows of a table of the schema: it has a column for each field, its other columns have default values,
and its primary key is that of the schema, in any order. -/
structure MdbTakes (cenv : CaseEnv) (c : TabClass) (tab : SqlTab) : Prop where
  fields : ∀ f ∈ c.fields, ∃ col ∈ tab.cols, SqlSame cenv col.name f
  others : ∀ col ∈ tab.cols, (∀ f ∈ c.fields, ¬ SqlSame cenv col.name f) → ∃ x, col.dflt = some x
  keySub : ∀ f ∈ c.pks, ∃ k ∈ tab.key, SqlSame cenv k f
  keySup : ∀ k ∈ tab.key, ∃ f ∈ c.pks, SqlSame cenv k f

/-- This table is the one of the schema: its name is that in the schema up to case and blanks for underscores, and there is no other
such table. -/
def StandsFor (cenv : CaseEnv) (file : SqlFile) (t k : String) (tab : SqlTab) : Prop :=
  (k, tab) ∈ file ∧ (∃ n, BlankedVariant t.toList n ∧ cenv.lower k.toList = cenv.lower n) ∧
    ∀ k' ∈ PyDict.keys file, ∀ n, BlankedVariant t.toList n → cenv.lower k'.toList = cenv.lower n → k' = k

/-- What the schema sees of a database: for each of its tables the cells under the names of its fields. -/
def seen (cenv : CaseEnv) (schema : List (String × TabClass)) (file : SqlFile) : SqlDb :=
  schema.map (fun tc => (tc.1, ((file.find cenv tc.1).bind (fun tab => tab.select cenv tc.2.fields)).getD []))

/-- The same tables with the same columns and keys, and with the same rows unless they are tables of the schema; a row that was not
there before is in a table of the schema and has the default values in the columns that are no fields. -/
def WrittenOver (cenv : CaseEnv) (schema : List (String × TabClass)) (file file' : SqlFile) : Prop :=
  Pairwise2 (fun p p' => p'.1 = p.1 ∧ p'.2.cols = p.2.cols ∧ p'.2.key = p.2.key ∧
    ((∀ tc ∈ schema, ¬ SqlSame cenv p.1 tc.1) → p'.2.rows = p.2.rows) ∧
    ∀ row ∈ p'.2.rows, row ∈ p.2.rows ∨ ∃ tc ∈ schema, SqlSame cenv p.1 tc.1 ∧ row.length = p.2.cols.length ∧
      DefaultsIn cenv p.2 tc.2.fields row) file file'

end Ticdat.Spec
