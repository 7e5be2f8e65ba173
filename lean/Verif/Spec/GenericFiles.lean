import Verif.Model.GenericFiles
import Verif.Spec.AsDict
import Verif.Spec.TableIO
/-!
# Specification of generic tables in files
-/
namespace Ticdat.Spec

/-- A DataFrame whose columns have the given names, with a cell for every column in every row. -/
def HasColumns (v : Frame) (names : List String) : Prop :=
  v.cols = names.map .name ∧ ∀ r ∈ v.rows, r.2.length = names.length

/-- A generic table that can be written: it is empty, or its columns have names that differ up to case, and none of them is
called `name`. -/
def Writable (cenv : CaseEnv) (v : Frame) : Prop :=
  v.rows = [] ∨ ∃ names, HasColumns v names ∧ names ≠ [] ∧ ((names.map String.toList).map cenv.lower).Nodup ∧ "name" ∉ names

/-- The names of the columns of a DataFrame, if they are text. -/
def columnNames (v : Frame) : List String := v.cols.filterMap Label.text

/-- The rows of a DataFrame as the rows of a table without primary key; the index is left out. -/
def frameRows (v : Frame) : List RowVal := v.rows.map (fun r => (columnNames v).zip r.2)

/-- What is written for a table of the object: for a generic table with rows its columns and its rows, nothing for an empty
generic table. -/
def writtenAs : TabKind → OutTab → Option (TabClass × TabVal)
  | .plain c, .tab v => some (⟨c.pks, c.dfs, zeros c.dfs⟩, v)
  | .generic, .frame v => if v.rows = [] then none
      else some (⟨[], columnNames v, zeros (columnNames v)⟩, .plain (frameRows v))
  | _, _ => none

/-- The text of `x` is read as `y` in a column of a generic table. -/
def GenericCell (env : TextEnv) (cf : IOConf) (t f : String) (x y : Cell) : Prop :=
  csvGenericCell env cf t f (.str (env.text x)) = some y

/-- The DataFrame `v` comes back as `v'`: the same columns in the same order and as many rows, without the index.  An empty
DataFrame comes back without columns. -/
def GenericBack (R : String → Cell → Cell → Prop) (v v' : Frame) : Prop :=
  v'.index = [] ∧
    ((v.rows = [] ∧ v'.cols = [] ∧ v'.rows = []) ∨
      v.rows ≠ [] ∧ v'.cols = v.cols ∧
        Pairwise2 (fun r r' => r'.1 = [] ∧ RowRel (columnNames v) R r.2 r'.2) v.rows v'.rows)

/-- The object `obj` comes back as `obj'`. -/
def ObjectBack (env : TextEnv) (cf : IOConf) (dv : Defaults) (t : String) : TabKind → OutTab → OutTab → Prop
  | .plain c, .tab v, .tab v' => WellShaped c v' ∧
      TabRel c (fun f x y => ∃ w, writeCell env newConf t f x = some w ∧ csvReadCell env cf dv t f (.str (env.text w)) = some y) v v'
  | .generic, .frame v, .frame v' => GenericBack (GenericCell env cf t) v v'
  | _, _, _ => False

/-- A cell of a generic table that survives a csv file: a number, NaN, or text that does not read as a number. -/
def GenericSafe (env : TextEnv) : Cell → Prop
  | .num _ => True
  | .nan => True
  | .str s => env.float s = none
  | _ => False

/-- A cell of a generic table that survives a SQLite file: a number, `None`, or text that neither SQLite nor the reader takes
for something else. -/
def GenericSqlSafe (senv : SqlEnv) (cenv : CaseEnv) : Cell → Prop
  | .num _ => True
  | .none => True
  | .str s => senv.num s = none ∧ ∀ w ∈ ["inf", "-inf", "true", "false"], cenv.lower s.toList ≠ w.toList
  | _ => False

/-- A generic table as it comes back: without its index, and without columns if it has no rows. -/
def frameBack (v : Frame) : Frame :=
  if v.rows = [] then ⟨[], [], []⟩ else ⟨[], v.cols, v.rows.map (fun r => ([], r.2))⟩

/-- A table as it comes back. -/
def tableBack : OutTab → OutTab
  | .frame v => .frame (frameBack v)
  | x => x

end Ticdat.Spec
