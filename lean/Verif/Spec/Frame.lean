import Verif.Model.Frame
import Verif.Spec.TableIO
/-!
# Specifications for DataFrames
-/
namespace Ticdat.Spec

/-- A DataFrame with distinct column labels and index names, in which every row has an entry for each of them. -/
structure FrameOK (v : Frame) : Prop where
  cols : v.cols.Nodup
  index : v.index.Nodup
  rows : ∀ r ∈ v.rows, r.1.length = v.index.length ∧ r.2.length = v.cols.length

/-- The entry of a row in the column with this label. -/
def colCell (v : Frame) (r : List Cell × List Cell) (l : Label) : Cell := (r.2[v.cols.idxOf l]?).getD (.num (.fin 0))

/-- The entry of a row in the index level with this name. -/
def indexCell (v : Frame) (r : List Cell × List Cell) (f : String) : Cell := (r.1[v.index.idxOf f]?).getD (.num (.fin 0))

/-- The value of field `f` for a row, when a `TicDat` is built: the column, else the default value, else the index. -/
def frameCell (c : TabClass) (v : Frame) (r : List Cell × List Cell) (f : String) : Cell :=
  if Label.name f ∈ v.cols then colCell v r (.name f)
  else
    match PyDict.get? c.defaults f with
    | some d => d
    | none => indexCell v r f

/-- There is a column or a default value for field `f`. -/
def Provided (c : TabClass) (v : Frame) (f : String) : Prop := Label.name f ∈ v.cols ∨ f ∈ PyDict.keys c.defaults

/-- A DataFrame that a table can be built from: each data field is a column or has a default; the primary key is made of
columns (or defaults), or else is the index.  Fields called "name" are restricted. -/
def FrameFits (c : TabClass) (v : Frame) : Prop :=
  "name" ∉ c.dfs ∧ ("name" ∈ c.pks → c.pks.length = 1) ∧ (∀ f ∈ c.dfs, Provided c v f) ∧
    ((∀ f ∈ c.pks, Provided c v f) ∨ (c.pks = v.index ∧ ∀ f ∈ c.pks, ¬ Provided c v f))

/-- The primary key of a row, given the values of fields. -/
def keyFrom (pks : List String) (cell : String → Cell) : KeyArg :=
  match pks with
  | [p] => .one (cell p)
  | ps => .tup (ps.map cell)

/-- The data fields of a row, given the values of fields. -/
def dataFrom (dfs : List String) (cell : String → Cell) : RowVal := dfs.map (fun f => (f, cell f))

/-- The table that rows with these keys and data make: each key that occurs has the data of the last row with that key,
and if the keys are distinct the order is kept.  Without primary key the table is the rows in order. -/
def TableOfRows {R : Type} (c : TabClass) (rows : List R) (cell : R → String → Cell) (tab : TabVal) : Prop :=
  if c.pks = [] then tab = .plain (rows.map (fun r => dataFrom c.dfs (cell r)))
  else ∃ d, tab = .keyed d ∧ (PyDict.keys d).Nodup ∧
    (∀ k, PyDict.get? d k =
      ((rows.filter (fun r => decide (keyFrom c.pks (cell r) = k))).getLast?).map (fun r => dataFrom c.dfs (cell r))) ∧
    ((rows.map (fun r => keyFrom c.pks (cell r))).Nodup →
      d = rows.map (fun r => (keyFrom c.pks (cell r), dataFrom c.dfs (cell r))))

/-- What pandas may do to the values it is given: `None` may become NaN. -/
def Stored (a b : Cell) : Prop := a = b ∨ (a = .none ∧ b = .nan)

/-- pandas keeps the rows it is given, up to `Stored`. -/
def KeepsRows (env : PandasEnv) : Prop := ∀ rows, Pairwise2 (Pairwise2 Stored) rows (env.store rows)

/-- With these arguments `copy_to_pandas` leaves the primary key of the table in the index only. -/
def KeyInIndexOnly (c : TabClass) (drop : Option Bool) (reset : Bool) : Prop :=
  reset = false ∧ (drop = some true ∨ (drop = none ∧ c.dfs ≠ []))

/-- The index of the frame is the primary key of the table and no key field is a column. -/
def PanIndexed (c : TabClass) (v : Frame) : Prop :=
  c.pks ≠ [] ∧ (∀ f ∈ c.pks, Label.name f ∉ v.cols) ∧ ∀ f, f ∈ c.pks ↔ f ∈ v.index

/-- The columns of the frame are numbered, not named. -/
def Numbered (v : Frame) : Prop := v.cols = (List.range v.cols.length).map .pos

/-- A DataFrame that a table of a `PanDat` can be made of: its columns are numbered and there are enough of them, or each
field is a column or has a default value, where the primary key may be the index. -/
def PanFits (c : TabClass) (v : Frame) : Prop :=
  (PanIndexed c v ∧ ∀ f ∈ c.dfs, Provided c v f) ∨
  (¬ PanIndexed c v ∧ Numbered v ∧ c.fields.length ≤ v.cols.length) ∨
  (¬ PanIndexed c v ∧ ¬ Numbered v ∧ ∀ f ∈ c.fields, Provided c v f)

open Classical in
/-- The value of field `f` for a row of such a DataFrame. -/
noncomputable def panCell (c : TabClass) (v : Frame) (r : List Cell × List Cell) (f : String) : Cell :=
  if PanIndexed c v ∧ f ∈ c.pks then indexCell v r f
  else if ¬ PanIndexed c v ∧ Numbered v then (r.2[c.fields.idxOf f]?).getD (.num (.fin 0))
  else if Label.name f ∈ v.cols then colCell v r (.name f)
  else (PyDict.get? c.defaults f).getD (.num (.fin 0))

open Classical in
/-- The columns of such a DataFrame that are not fields of the table, in order. -/
noncomputable def otherCols (c : TabClass) (v : Frame) : List Label :=
  if ¬ PanIndexed c v ∧ Numbered v then v.cols.drop c.fields.length
  else v.cols.filter (fun l => !decide (l ∈ c.fields.map .name))

end Ticdat.Spec
