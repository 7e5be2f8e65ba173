import Verif.Model.SqliteIO
import Verif.Model.AsDict
import Verif.Model.Factory
/-!
# Generic tables in csv directories and SQLite databases

The writers first make an object of a new factory without generic tables (`create_generic_free`), whose settings are those
of a new factory.
-/
namespace Ticdat

/-- The settings of a new factory: no data types, no infinity flag, no parameters (utils.py:845,
ticdatfactory.py:635-930). -/
def newConf : IOConf := ⟨[], .na, true, []⟩

/-- The default value 0 for each data field (ticdatfactory.py:679-682). -/
def zeros (dfs : List String) : PyDict String Cell := dfs.map (fun f => (f, .num (.fin 0)))

/-- Columns with text names. -/
def Label.text : Label → Option String
  | .name s => some s
  | .pos _ => none

/-- The entry of a table in the schema of the new factory (utils.py:841-844), with the checks of
`TicDatFactory(**sch)` on it (ticdatfactory.py:658-672); `some none` for an empty generic table. -/
def freeClass (cenv : CaseEnv) : TabKind → OutTab → Option (Option TabClass)
  | .plain c, _ => some (some ⟨c.pks, c.dfs, zeros c.dfs⟩)
  | .generator c, _ => some (some ⟨c.pks, c.dfs, zeros c.dfs⟩)
  | .generic, .frame v =>
    if v.rows = [] then some none
    else (v.cols.mapM Label.text).bind (fun names =>
      if goodDecl cenv (.fields [] names) then some (some ⟨[], names, zeros names⟩) else none)
  | .generic, _ => none

/-- The schema of the new factory (utils.py:841-845). -/
def freeSchema (cenv : CaseEnv) (obj : PyDict String OutTab) : List (String × TabKind) → Option (List (String × TabClass))
  | [] => some []
  | tk :: rest => ((PyDict.get? obj tk.1).bind (freeClass cenv tk.2)).bind (fun c =>
      (freeSchema cenv obj rest).map (fun r =>
        match c with
        | none => r
        | some c => (tk.1, c) :: r))

/-- A table of a `TicDat` object as an argument of the constructor. -/
def TabVal.asInput : TabVal → TableIn
  | .keyed d => .dict (d.map (fun p => (p.1, .dict p.2)))
  | .plain rows => .seq (rows.map .dict)

/-- A table of the new object (utils.py:846, ticdatfactory.py:776-861): a generator function is not accepted for a table
that is no generator table of the new factory (ticdatfactory.py:1223-1232). -/
def freeTab (c : TabClass) : OutTab → Option TabVal
  | .tab v => initTable c v.asInput
  | .frame v => initFrame c v
  | .gen _ _ => none

/-- `create_generic_free` (utils.py:837-846) for a schema with generic tables: the schema and the tables of the new object;
`none` is a raised exception.  The check for duplicate rows never finds any here. -/
def createGenericFree (cenv : CaseEnv) (kinds : List (String × TabKind)) (obj : PyDict String OutTab) :
    Option (List (String × TabClass) × PyDict String TabVal) :=
  (freeSchema cenv obj kinds).bind (fun schema =>
    (schema.mapM (fun tc => ((PyDict.get? obj tc.1).bind (freeTab tc.2)).map (fun v => (tc.1, v)))).map (fun dat =>
      (schema, dat)))

/-! ### csv -/

/-- `write_directory` for a schema with generic tables (csvtd.py:242-244): the names of the tables are never made pretty,
since `case_space_table_names` is not handed on. -/
def csvWriteGeneric (env : TextEnv) (cenv : CaseEnv) (allowOverwrite headers : Bool) (kinds : List (String × TabKind))
    (obj : PyDict String OutTab) (dir : PyDict (List Char) CsvFile) : Option (PyDict (List Char) CsvFile) :=
  (createGenericFree cenv kinds obj).bind (fun sd =>
    csvWrite env cenv newConf allowOverwrite headers false sd.1 sd.2 dir)

/-- `_read_cell` for a generic table (csvtd.py:92-110): there is neither default value nor data type; text that is a
number becomes a number. -/
def csvGenericCell (env : TextEnv) (cf : IOConf) (t f : String) (x : Cell) : Option Cell :=
  let inner : Option Cell :=
    (if x = .str "" then (readCell env cf t f .none).map Cell.numericish else some false).map (fun isNone =>
      if isNone then .none
      else
        match x with
        | .str s => ((env.float s).map floatCell).getD x
        | x => x)
  inner.bind (readCell env cf t f)

/-- `_get_data` for a generic table (csvtd.py:169-189, 210-211): the fields are the columns of the file, which must differ
up to case; without headers every line raises. -/
def csvGenericRows (env : TextEnv) (cenv : CaseEnv) (cf : IOConf) (t : String) (headers : Bool) : CsvFile → Option (List RowIn)
  | [] => some []
  | header :: lines =>
    if headers then
      (csvRows cenv (PyDict.keys (PyDict.ofList (header.map (fun h => (h.toList, ()))))) (header.map String.toList)
        (lines.map (fun l => l.map Cell.str))).bind (fun rows =>
          rows.mapM (fun row => (row.mapM (fun p =>
            (csvGenericCell env cf t (String.ofList p.1) p.2).map (fun x => (String.ofList p.1, x)))).map RowIn.dict))
    else none

/-- The cells of a row given as a dictionary with these keys. -/
def RowIn.cellsOf (keys : List String) : RowIn → Option (List Cell)
  | .dict e => if PyDict.keys e = keys then some (e.map Prod.snd) else none
  | _ => none

/-- `DataFrame(rows)` of a list of dictionaries with the same keys.  Simplification: cells are kept as they are; no other
arguments are needed here. -/
def frameOfDicts : AttrVal → Option Frame
  | .tab (.seq []) => some ⟨[], [], []⟩
  | .tab (.seq (RowIn.dict d :: rows)) =>
    ((RowIn.dict d :: rows).mapM (RowIn.cellsOf (PyDict.keys d))).map (fun rs =>
      ⟨[], (PyDict.keys d).map Label.name, rs.map (fun r => ([], r))⟩)
  | _ => none

/-- One table found in a directory (csvtd.py:111-120, 191-214). -/
def csvKindFind (env : TextEnv) (cenv : CaseEnv) (cf : IOConf) (dv : Defaults) (headers : Bool)
    (dir : PyDict (List Char) CsvFile) (tk : String × TabKind) : Option (Option AttrVal) :=
  match tk.2 with
  | .plain c => (csvFind env cenv cf dv headers dir (tk.1, c)).map (Option.map .tab)
  | .generator _ => none
  | .generic => (csvFilePath cenv (PyDict.keys dir) tk.1.toList).bind (fun path =>
      match path with
      | none => some none
      | some f => ((PyDict.get? dir f).bind (csvGenericRows env cenv cf tk.1 headers)).map (fun rows =>
          if rows = [] then none else some (.tab (.seq rows))))

/-- The arguments of the constructor (csvtd.py:111-120). -/
def gatherKinds (rd : String × TabKind → Option (Option AttrVal)) : List (String × TabKind) → Option (PyDict String AttrVal)
  | [] => some []
  | tk :: rest => (rd tk).bind (fun x => (gatherKinds rd rest).map (fun r =>
      match x with
      | none => r
      | some y => (tk.1, y) :: r))

/-- The adjustment of the parameters table. -/
def OutTab.adjust (env : TextEnv) (params : Params) : OutTab → OutTab
  | .tab (.keyed d) => .tab (.keyed (d.map (postReadEntry env params)))
  | v => v

/-- `_parameter_table_post_read_adjustment` (ticdatfactory.py:1084-1112) on an object with generic tables. -/
def postReadKinds (env : TextEnv) (params : Params) (obj : PyDict String OutTab) : PyDict String OutTab :=
  if params = [] then obj
  else obj.map (fun p => (p.1, if p.1 = "parameters" then p.2.adjust env params else p.2))

/-- `create_tic_dat` of csv files with generic tables (csvtd.py:56-83), without generator tables. -/
def csvCreateKinds (env : TextEnv) (cenv : CaseEnv) (cf : IOConf) (dv : Defaults) (policy : DupPolicy) (headers : Bool)
    (kinds : List (String × TabKind)) (dir : PyDict (List Char) CsvFile) : Option (PyDict String OutTab) :=
  ((gatherKinds (csvKindFind env cenv cf dv headers dir) kinds).bind (initKinds frameOfDicts policy kinds)).map
    (postReadKinds env cf.params)

/-! ### SQLite -/

/-- `write_db_data` for a schema with generic tables (sqlitetd.py:342-344): every data field has the default value 0. -/
def sqlWriteGeneric (env : TextEnv) (senv : SqlEnv) (cenv : CaseEnv) (allowOverwrite : Bool) (kinds : List (String × TabKind))
    (obj : PyDict String OutTab) (db : Option SqlDb) : Option SqlDb :=
  (createGenericFree cenv kinds obj).bind (fun sd =>
    sqlWriteDb env senv cenv newConf (fun t f => (PyDict.get? sd.1 t).bind (fun c => PyDict.get? c.defaults f)) allowOverwrite
      sd.1 sd.2 db)

/-- A generic table in `_create_tic_dat_from_con` (sqlitetd.py:214-230); `some none` is a table that is not passed.  `found`
are the columns and rows of the table with this very name (`PRAGMA table_info`), `none` if there is none.  A table that is
missing in a database file is left out (sqlitetd.py:149-166, 215-221), but not one that is missing after running a .sql file
(`fromSql`, sqlitetd.py:146-147): there it is a `Select` of no columns, which is an error. -/
def sqlGenericRows (env : TextEnv) (cenv : CaseEnv) (cf : IOConf) (fromSql : Bool) (t : String)
    (found : Option (List String × List (List Cell))) : Option (Option (List RowIn)) :=
  match found with
  | none => if fromSql then none else some none
  | some (cols, rows) =>
    if cols = [] then none
    else (rows.mapM (fun row => ((cols.zip row).mapM (fun p =>
      (sqlReadCell env cenv cf t p.1 p.2).map (fun x => (p.1, x)))).map (fun l => RowIn.dict (PyDict.ofList l)))).map some

end Ticdat
