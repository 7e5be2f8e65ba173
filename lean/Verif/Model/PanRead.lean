import Verif.Model.Frame
import Verif.Model.PanIO
import Verif.Model.Utils
/-!
# Reading and writing `PanDat` objects

What the readers of `pandatio.py` do with the DataFrames that pandas reads from a file, and what the writers hand to pandas.
-/
namespace Ticdat

/-- `rtn[t][f] = default_values[t][f]` for the missing fields that have a default (pandatio.py:126-129, 319-322, 429-432,
566-569).  `missing` is the set of missing fields in the order of its iteration. -/
def panFillMissing (c : TabClass) (missing : List String) (v : Frame) : Frame :=
  v.withDefaults (missing.filterMap (fun f => (PyDict.get? c.defaults f).map (fun d => (f, d))))

/-- One table that was found: missing fields are filled in or refused, then `_clean_pandat_creator` makes a `PanDat` and drops
the other columns (pandatio.py:37-43, 123-131, 316-325, 426-434, 563-572).  `none` is a raised exception. -/
def panReadTable (c : TabClass) (fill : Bool) (missing : List String) (v : Frame) : Option Frame :=
  let v := if fill then panFillMissing c missing v else v
  if c.fields.all v.has then (panInit c v).bind (fun w => w.select (c.fields.map .name)) else none

/-- The table of a `PanDat` for which nothing is given (pandatfactory.py:1011-1012). -/
def emptyFrame (c : TabClass) : Frame := ⟨[], c.fields.map .name, []⟩

/-- The whole object: `found` are the DataFrames of the tables that were found. -/
def panReadDat (schema : List (String × TabClass)) (fill : Bool) (missing : String → List String)
    (found : PyDict String Frame) : Option (PyDict String Frame) :=
  schema.mapM (fun tc =>
    match PyDict.get? found tc.1 with
    | none => some (tc.1, emptyFrame tc.2)
    | some v => (panReadTable tc.2 fill (missing tc.1) v).map (fun w => (tc.1, w)))

/-- `DataFrame(rows)` of a list of lists: numbered columns, short rows are padded with `None`. -/
def lolFrame (rows : List (List Cell)) : Frame :=
  let width := rows.foldl (fun n r => max n r.length) 0
  ⟨[], (List.range width).map .pos, rows.map (fun r => ([], r ++ List.replicate (width - r.length) .none))⟩

/-- A table of list-of-lists json (pandatio.py:107-111, 40-43): an empty list is no table (pandatfactory.py:988-989). -/
def panReadLol (c : TabClass) (rows : List (List Cell)) : Option Frame :=
  if rows = [] then some (emptyFrame c)
  else (panInit c (lolFrame rows)).bind (fun w => w.select (c.fields.map .name))

/-- `df[f]`. -/
def Frame.colOf (v : Frame) (f : String) : Option (List Cell) := v.rows.mapM (fun r => v.cell r.2 (.name f))

/-- `df[f] = col`, where `f` is a column. -/
def Frame.setCol (v : Frame) (f : String) (col : List Cell) : Frame :=
  { v with rows := List.zipWith (fun r x => (r.1, r.2.set (v.cols.idxOf (.name f)) x)) v.rows col }

/-- Each field's column goes through `adj`; `none` is a raised exception. -/
def Frame.adjust (adj : String → List Cell → Option (List Cell)) (v : Frame) : List String → Option Frame
  | [] => some v
  | f :: rest => do
    let col ← v.colOf f
    let col' ← adj f col
    (v.setCol f col').adjust adj rest

/-- `_general_post_read_adjustment` of a table other than `parameters` (pandatfactory.py:465-491). -/
def panPost (env : TextEnv) (lower : String → String) (cf : IOConf) (json : Bool) (t : String) (c : TabClass) (v : Frame) :
    Option Frame := v.adjust (panReadCol env lower cf json t) c.fields

/-- `_pre_write_adjustment` of a table other than `parameters` (pandatfactory.py:521-572): the fields of the table, then the
infinities. -/
def panPre (env : TextEnv) (cf : IOConf) (t : String) (c : TabClass) (v : Frame) : Option Frame :=
  (v.select (c.fields.map .name)).bind (fun w => w.adjust (panWriteCol env cf t) c.fields)

/-- `remove_trailing_all_nan(df)` (pandatfactory.py:50-54). -/
def Frame.prune (v : Frame) : Option Frame :=
  (removeTrailingNan (v.rows.map Prod.snd)).map (fun kept => { v with rows := v.rows.take kept.length })

/-- One sheet of `XlsPanFactory.create_pan_dat` (pandatio.py:557-578): the infinities and default values come before the
trailing rows are removed. -/
def xlsPanTable (env : TextEnv) (lower : String → String) (cf : IOConf) (prune : Bool) (t : String) (c : TabClass) (fill : Bool)
    (missing : List String) (v : Frame) : Option Frame :=
  (panReadTable c fill missing v).bind (fun w => (panPost env lower cf false t c w).bind (fun u =>
    if prune then u.prune else some u))

/-- `fix_cell` of the json writer (pandatio.py:165-170). -/
def jsonPanCell (env : TextEnv) (x : Cell) : Cell :=
  if x.isNull then .none else
  match x with
  | .dt d => .str (env.text (.dt d))
  | x => x

/-- A table in `JsonPanFactory.write_file` (pandatio.py:163-176). -/
def panWriteLol (env : TextEnv) (cf : IOConf) (t : String) (c : TabClass) (v : Frame) : Option (List (List Cell)) :=
  (panPre env cf t c v).bind (fun w =>
    w.rows.mapM (fun r => c.fields.mapM (fun f => (w.cell r.2 (.name f)).map (jsonPanCell env))))

end Ticdat
