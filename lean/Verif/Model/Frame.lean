import Verif.Model.TableIO
/-!
# DataFrames: building data objects from them, and copying data objects to them

A `DataFrame` is the names of its index levels, its column labels and its rows.  Simplifications: column labels are strings
or positions; an index of which some level has no name is an unnamed index, and the entries of an unnamed index are left
out; pandas' choice of column types is a function on the rows (`store`).
-/
namespace Ticdat

/-- A column label: a name, or a position (the labels `DataFrame` gives to rows without names). -/
inductive Label where
  | name (s : String)
  | pos (n : Nat)
deriving DecidableEq, Repr

/-- A `DataFrame`: `index` is `df.index.names` (`[]` if unnamed), `cols` is `list(df.columns)`, each row has its index
entries and its cells. -/
structure Frame where
  index : List String
  cols : List Label
  rows : List (List Cell × List Cell)
deriving DecidableEq, Repr

/-- `f in df.columns`. -/
def Frame.has (v : Frame) (f : String) : Bool := decide (Label.name f ∈ v.cols)

/-- `row_dict[label]` with `row_dict = {f:v for f,v in zip(cols, row[1:])}` (utils.py:63-66); `none` is a `KeyError`. -/
def Frame.cell (v : Frame) (cells : List Cell) (l : Label) : Option Cell :=
  PyDict.get? (PyDict.ofList (v.cols.zip cells)) l

/-- `if f not in df.columns: df[f] = d` (ticdatfactory.py:791-792, pandatfactory.py:1009-1010). -/
def Frame.addCol (v : Frame) (f : String) (d : Cell) : Frame :=
  if v.has f then v
  else { v with cols := v.cols ++ [.name f], rows := v.rows.map (fun r => (r.1, r.2 ++ [d])) }

/-- The loop over the default values of a table (ticdatfactory.py:787-792, pandatfactory.py:1008-1010). -/
def Frame.withDefaults (v : Frame) (defaults : PyDict String Cell) : Frame :=
  defaults.foldl (fun v p => v.addCol p.1 p.2) v

/-- `df.reset_index(drop=False)`: the named index levels become the first columns; raises if there is a column with that
name already. -/
def Frame.resetIndex (v : Frame) : Option Frame :=
  if v.index.any v.has then none
  else some ⟨[], v.index.map .name ++ v.cols, v.rows.map (fun r => ([], r.1 ++ r.2))⟩

/-- The branch for DataFrames of `good_tic_dat_table`, "generous" (ticdatfactory.py:1195-1220). -/
def frameGood (c : TabClass) (v : Frame) : Bool :=
  !decide ("name" ∈ c.dfs) && !(decide ("name" ∈ c.pks) && decide (c.pks.length > 1)) && c.dfs.all v.has &&
    !(decide (c.pks ≠ []) && decide (c.pks ≠ v.index) && !c.pks.all v.has)

/-- `key_maker` (ticdatfactory.py:806-808). -/
def frameKey (c : TabClass) (v : Frame) (cells : List Cell) : Option KeyArg :=
  match c.pks with
  | [p] => (v.cell cells (.name p)).map .one
  | ps => (ps.mapM (fun p => v.cell cells (.name p))).map .tup

/-- `_rd_` (ticdatfactory.py:802). -/
def frameData (c : TabClass) (v : Frame) (cells : List Cell) : Option RowVal :=
  c.dfs.mapM (fun f => (v.cell cells (.name f)).map (fun x => (f, x)))

/-- `add_row` (ticdatfactory.py:809-810) with `TicDatDict.__setitem__` (707-712). -/
def frameRow (c : TabClass) (v : Frame) (cells : List Cell) : Option (KeyArg × RowVal) :=
  (frameKey c v cells).bind (fun k => (frameData c v cells).bind (fun d =>
    if keyOK c.pkLen k then (initRow c (.dict d)).map (fun row => (k, row)) else none))

/-- The frame that the rows are taken from: the index is turned into columns if a key field is not a column
(ticdatfactory.py:804-805). -/
def frameSource (c : TabClass) (v : Frame) : Option Frame := if c.pks.all v.has then some v else v.resetIndex

/-- One table of `TicDat.__init__` that is given as a DataFrame (ticdatfactory.py:786-813); `none` is a raised exception. -/
def initFrame (c : TabClass) (v : Frame) : Option TabVal :=
  if frameGood c (v.withDefaults c.defaults) then
    if c.pks ≠ [] then
      (frameSource c (v.withDefaults c.defaults)).bind (fun u =>
        (u.rows.mapM (fun r => frameRow c u r.2)).map (fun l => .keyed (PyDict.ofList l)))
    else
      ((v.withDefaults c.defaults).rows.mapM (fun r =>
        (frameData c (v.withDefaults c.defaults) r.2).bind (fun d => initRow c (.dict d)))).map .plain
  else none

/-- The table named in one entry of the schema, for a data object built from DataFrames. -/
def initFrameEntry (input : PyDict String Frame) (tc : String × TabClass) : Option (String × TabVal) :=
  match PyDict.get? input tc.1 with
  | none => some (tc.1, emptyTable tc.2)
  | some v => (initFrame tc.2 v).map (fun tab => (tc.1, tab))

/-- `TicDat(**frames)` (ticdatfactory.py:776-861) where all tables are DataFrames; `_copy_to_tic_dat`
(pandatfactory.py:1096-1109) for a schema without generic tables. -/
def initFrames (policy : DupPolicy) (schema : List (String × TabClass)) (input : PyDict String Frame) :
    Option (PyDict String TabVal) :=
  if input.all (fun p => decide (p.1 ∈ schema.map Prod.fst)) then
    match schema.mapM (initFrameEntry input) with
    | none => none
    | some tabs =>
      if policy = .assert && input.any (fun p =>
        decide (p.2.rows.length > ((PyDict.get? tabs p.1).map TabVal.size).getD 0)) then none
      else some tabs
  else none

/-! ## `PanDat.__init__` -/

/-- `list(df.columns) == list(range(len(df.columns)))` (pandatfactory.py:1003). -/
def Frame.positional (v : Frame) : Bool := decide (v.cols = (List.range v.cols.length).map .pos)

/-- `df.rename(columns={f1:f2 for f1, f2 in zip(df.columns, fields)})` of a frame whose columns are positions
(pandatfactory.py:1005-1006). -/
def Frame.rename (v : Frame) (fields : List String) : Frame :=
  { v with cols := fields.map .name ++ v.cols.drop fields.length }

/-- `df[labels]`; a missing label raises. -/
def Frame.select (v : Frame) (ls : List Label) : Option Frame :=
  (v.rows.mapM (fun r => (ls.mapM (v.cell r.2)).map (fun cells => (r.1, cells)))).map (fun rows => { v with cols := ls, rows := rows })

/-- The index of a table is turned into columns if it is the primary key (pandatfactory.py:999-1002). -/
def panIndex (c : TabClass) (v : Frame) : Option Frame :=
  if c.pks ≠ [] && !c.pks.any v.has && (c.pks.all (fun p => decide (p ∈ v.index)) && v.index.all (fun p => decide (p ∈ c.pks)))
  then v.resetIndex else some v

/-- Renaming of positions and default values (pandatfactory.py:1003-1010). -/
def panFill (c : TabClass) (v : Frame) : Frame :=
  let v := if v.positional && decide (v.cols.length ≥ (c.pks ++ c.dfs).length) then v.rename (c.pks ++ c.dfs) else v
  if v.positional then v else v.withDefaults c.defaults

/-- The fields of the table come first, other columns follow (pandatfactory.py:1017-1022). -/
def panOrder (c : TabClass) (v : Frame) : Option Frame :=
  let af := (c.pks ++ c.dfs).map Label.name
  if v.cols.take af.length ≠ af then v.select (af ++ v.cols.filter (fun l => !decide (l ∈ af))) else some v

/-- One table of `PanDat.__init__` that is given as a DataFrame (pandatfactory.py:986-1022).  A generic table is one
without fields. -/
def panInit (c : TabClass) (v : Frame) : Option Frame :=
  (panIndex c v).bind (fun u => if (c.pks ++ c.dfs).all (panFill c u).has then panOrder c (panFill c u) else none)

/-- `good_pan_dat_object` for one table that is a DataFrame (pandatfactory.py:1032-1056). -/
def goodPanTable (c : TabClass) (v : Frame) : Bool := (c.pks ++ c.dfs).all v.has

/-! ## `copy_to_pandas` -/

/-- What `DataFrame(rows, columns=..)` keeps of rows of values. -/
structure PandasEnv where
  store : List (List Cell) → List (List Cell)

/-- The frame of a table with primary key, from its rows of key cells and data cells: `set_index` with or without dropping
the columns (ticdatfactory.py:1660-1668).  `drop` is `drop_pk_columns`, `reset` is `reset_index`. -/
def keyedFrame (c : TabClass) (drop : Option Bool) (reset : Bool) (rows : List (List Cell)) : Frame :=
  if reset then ⟨[], c.fields.map .name, rows.map (fun r => ([], r))⟩
  else if drop.getD (decide (c.dfs ≠ [])) then
    ⟨c.pks, c.dfs.map .name, rows.map (fun r => (r.take c.pks.length, r.drop c.pks.length))⟩
  else ⟨c.pks, c.fields.map .name, rows.map (fun r => (r.take c.pks.length, r))⟩

/-- One table of `copy_to_pandas` (ticdatfactory.py:1649-1675), after the check of the whole object (1635-1637, C54);
`none` is a raised `KeyError`. -/
def copyToPandas (env : PandasEnv) (c : TabClass) (drop : Option Bool) (reset : Bool) (tab : TabVal) : Option Frame :=
  if tab.size = 0 then some ⟨[], c.fields.map .name, []⟩
  else
    (flatRows c tab).map (fun rows =>
      match tab with
      | .keyed _ => keyedFrame c drop reset (env.store rows)
      | .plain _ => ⟨[], c.dfs.map .name, (env.store rows).map (fun r => ([], r))⟩)

/-- An attribute of the object that `copy_to_pandas` returns. -/
inductive PandasAttr where
  | frame (v : Frame)
  | text (s : String)
deriving DecidableEq, Repr

/-- `copy_to_pandas` for one table of the schema; `none` is a generic table, for which the attribute becomes the *name* of
the table (ticdatfactory.py:1651-1652: `df = tname`). -/
def copyToPandasAttr (env : PandasEnv) (drop : Option Bool) (reset : Bool) (t : String) :
    Option (TabClass × TabVal) → Option PandasAttr
  | none => some (.text t)
  | some (c, tab) => (copyToPandas env c drop reset tab).map .frame

end Ticdat
