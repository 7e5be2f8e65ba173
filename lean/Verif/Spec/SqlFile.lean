import Verif.Model.SqlFile
import Verif.Spec.SqliteIO
/-!
# Specification of databases with a schema of their own
-/
namespace Ticdat.Spec

/-- Names that are the same to SQLite. -/
def SqlSame (cenv : CaseEnv) (a b : String) : Prop := cenv.lower a.toList = cenv.lower b.toList

/-- What SQLite guarantees of every database: names of tables and of columns are distinct up to case, the primary key
consists of columns, and rows have a cell for each column. -/
structure SqlFileWF (cenv : CaseEnv) (file : SqlFile) : Prop where
  names : ((PyDict.keys file).map (fun k => cenv.lower k.toList)).Nodup
  cols : ∀ p ∈ file, (p.2.cols.map (fun c => cenv.lower c.name.toList)).Nodup
  key : ∀ p ∈ file, ∀ k ∈ p.2.key, ∃ c ∈ p.2.cols, SqlSame cenv c.name k
  rows : ∀ p ∈ file, ∀ r ∈ p.2.rows, r.length = p.2.cols.length

/-- The database has this table under this name, in whatever case, and no other that differs by blanks for underscores. -/
def HasTable (cenv : CaseEnv) (file : SqlFile) (t : String) (tab : SqlTab) : Prop :=
  (∃ k, (k, tab) ∈ file ∧ SqlSame cenv k t) ∧
    ∀ k ∈ PyDict.keys file, unblank (cenv.lower k.toList) = cenv.lower t.toList → SqlSame cenv k t

/-- The database has no table that the reader might take for this one. -/
def NoTable (cenv : CaseEnv) (file : SqlFile) (t : String) : Prop :=
  ∀ k ∈ PyDict.keys file, unblank (cenv.lower k.toList) ≠ cenv.lower t.toList

/-- The row has the cell `x` in the column with the name `f`. -/
def CellAt (cenv : CaseEnv) (tab : SqlTab) (row : List Cell) (f : String) (x : Cell) : Prop :=
  ∃ (i : Nat) (c : SqlCol), tab.cols[i]? = some c ∧ SqlSame cenv c.name f ∧ row[i]? = some x

/-- Rows with the same cells in the columns with these names. -/
def SameByName (cenv : CaseEnv) (fields : List String) (tab tab' : SqlTab) : Prop :=
  Pairwise2 (fun r r' => ∀ f ∈ fields, ∃ x, CellAt cenv tab r f x ∧ CellAt cenv tab' r' f x) tab.rows tab'.rows

/-- The table can take the rows of a table of the schema: it has a column for each field, of numeric affinity just where `dv`
has a number for the field, its other columns have default values, and its primary key, if it has one, has all the key fields
of a keyed table. -/
structure TakesRows (cenv : CaseEnv) (cf : IOConf) (dv : Defaults) (t : String) (c : TabClass) (tab : SqlTab) : Prop where
  fields : ∀ f ∈ c.fields, ∃ col ∈ tab.cols, SqlSame cenv col.name f
  affinity : ∀ col ∈ tab.cols, ∀ f ∈ c.fields, SqlSame cenv col.name f → (col.aff = true ↔ SqlNumColumn cf dv t f)
  others : ∀ col ∈ tab.cols, (∀ f ∈ c.fields, ¬ SqlSame cenv col.name f) → ∃ x, col.dflt = some x
  key : tab.key = [] ∨ (c.pks ≠ [] ∧ ∀ f ∈ c.pks, ∃ k ∈ tab.key, SqlSame cenv k f)

/-- The row has the default value in every column whose name is not among the fields. -/
def DefaultsIn (cenv : CaseEnv) (tab : SqlTab) (fields : List String) (row : List Cell) : Prop :=
  ∀ (i : Nat) c, tab.cols[i]? = some c → (∀ f ∈ fields, ¬ SqlSame cenv c.name f) → row[i]? = c.dflt

/-- The same tables with the same columns and the same rows in any order. -/
def SameSqlFile (file file' : SqlFile) : Prop :=
  Pairwise2 (fun p p' => p'.1 = p.1 ∧ p'.2.cols = p.2.cols ∧ p'.2.key = p.2.key ∧ List.Perm p'.2.rows p.2.rows) file file'

end Ticdat.Spec
