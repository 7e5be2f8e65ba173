import Verif.Model.PanSame
import Verif.Spec.SameData
import Verif.Spec.Frame
/-!
# Specification of comparing and copying `PanDat` objects
-/
namespace Ticdat.Spec

/-- The schema of a `PanDatFactory`: distinct table names, no generator tables, and the field names that the factory
verifies (not empty, distinct also without case). -/
structure PanSchema (env : FactoryEnv) (kinds : List (String × TabKind)) : Prop where
  names : (kinds.map Prod.fst).Nodup
  fields : ∀ tk ∈ kinds, tk.2 = .generic ∨ ∃ c, tk.2 = .plain c ∧ c.fields ≠ [] ∧
    (c.fields.map (fun f => env.case.lower f.toList)).Nodup

/-- An object that `good_pan_dat_object` accepts: a DataFrame for every table, which has the fields as columns. -/
def PanObj (kinds : List (String × TabKind)) (obj : PyDict String Frame) : Prop :=
  PyDict.keys obj = kinds.map Prod.fst ∧
    ∀ tk ∈ kinds, ∀ v, PyDict.get? obj tk.1 = some v → FrameOK v ∧ ∀ f ∈ tk.2.fields, Label.name f ∈ v.cols

/-- The value of a field in a row. -/
def fieldCell (v : Frame) (r : List Cell × List Cell) (f : String) : Cell := colCell v r (.name f)

/-- No field is called "name", except a primary key of its own. -/
def NoNameField (c : TabClass) : Prop := "name" ∉ c.dfs ∧ ("name" ∈ c.pks → c.pks.length = 1)

/-- No two rows have the same primary key. -/
def DistinctKeys (c : TabClass) (v : Frame) : Prop :=
  c.pks = [] ∨ (v.rows.map (fun r => keyFrom c.pks (fieldCell v r))).Nodup

/-- The columns of a generic table could be the fields of a table. -/
def FieldColumns (env : FactoryEnv) (v : Frame) : Prop :=
  v.cols ≠ [] ∧ ∃ names : List String, v.cols = names.map .name ∧ (names.map (fun f => env.case.lower f.toList)).Nodup

/-- A DataFrame that can be compared. -/
def Comparable (env : FactoryEnv) (k : TabKind) (v : Frame) : Prop :=
  match k with
  | .generic => FieldColumns env v
  | .generator _ => False
  | .plain c => NoNameField c ∧ DistinctKeys c v

/-- The two rows have the same primary key, and their values agree in all other fields. -/
def PanRowsAgree (o : SameOpts) (pks dfs : List String) (v : Frame) (r : List Cell × List Cell) (w : Frame)
    (s : List Cell × List Cell) : Prop :=
  (∀ f ∈ pks, fieldCell v r f = fieldCell w s f) ∧ ∀ f ∈ dfs, CellsAgree o (fieldCell v r f) (fieldCell w s f)

/-- The DataFrames have as many rows and for each row of the first a row of the second that agrees.  For a generic table
they have the same columns, in any order, and the rows agree in all columns; for other tables they agree in the fields. -/
def PanTabsAgree (o : SameOpts) (k : TabKind) (v w : Frame) : Prop :=
  v.rows.length = w.rows.length ∧
    match k with
    | .generic => (∀ l, l ∈ v.cols ↔ l ∈ w.cols) ∧
        ∀ r ∈ v.rows, ∃ s ∈ w.rows, ∀ l ∈ v.cols, CellsAgree o (colCell v r l) (colCell w s l)
    | .generator c => ∀ r ∈ v.rows, ∃ s ∈ w.rows, PanRowsAgree o c.pks c.dfs v r w s
    | .plain c => ∀ r ∈ v.rows, ∃ s ∈ w.rows, PanRowsAgree o c.pks c.dfs v r w s

end Ticdat.Spec
