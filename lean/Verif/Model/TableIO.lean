import Verif.Model.Init
import Verif.Model.CellIO
import Verif.Model.Names
/-!
# Writing whole tables and reading them back

Files are modelled by what the libraries (json, csv, sqlite3, xlrd, xlwt, openpyxl, xlsxwriter) hand over: rows of cells.
What the libraries do to single cells is part of the model and stated where it is used.  Generic tables, generator tables
and the pandas flavoured json are not modelled.
-/
namespace Ticdat

/-- `list(pk) if containerish(pk) else [pk]` (jsontd.py:42, csvtd.py:269-270, xls.py:437, sqlitetd.py:290). -/
def keyCells : KeyArg → List Cell
  | .one v => [v]
  | .tup vs => vs

/-- `[data_row[df] for df in tdf.data_fields[t]]` (jsontd.py:43, 46, xls.py:438, 442); `none` is a `KeyError`. -/
def dataCells (c : TabClass) (row : RowVal) : Option (List Cell) := c.dfs.mapM (PyDict.get? row)

/-- The rows of a table as flat lists of cells, key cells first (jsontd.py:40-46, xls.py:435-443). -/
def flatRows (c : TabClass) : TabVal → Option (List (List Cell))
  | .keyed d => d.mapM (fun p => (dataCells c p.2).map (keyCells p.1 ++ ·))
  | .plain rows => rows.mapM (dataCells c)

/-- Names of the fields of a table, key fields first. -/
def TabClass.fields (c : TabClass) : List String := c.pks ++ c.dfs

/-- What the csv, SQLite and Excel readers pass to the `TicDat` constructor for a table: a dictionary they fill in file
order, or a list (csvtd.py:202-213, sqlitetd.py:226-238, xls.py:246-257). -/
def readerTable (c : TabClass) (rows : List (List Cell)) : TableIn :=
  if c.pks ≠ [] then
    .dict (PyDict.ofList (rows.map (fun r =>
      (splitKey c.pks.length (.seq r), RowIn.seq (r.drop c.pks.length)))))
  else .seq (rows.map .seq)

/-- `_sub_tuple` on the data fields (xls.py:346-349): a single data field is passed as a bare value. -/
def xlData (c : TabClass) : List Cell → RowIn
  | [v] => if c.dfs.length = 1 then .scalar v else .seq [v]
  | vs => .seq vs

/-- The same for Excel files (xls.py:246-257). -/
def readerTableX (c : TabClass) (rows : List (List Cell)) : TableIn :=
  if c.pks ≠ [] then
    .dict (PyDict.ofList (rows.map (fun r => (splitKey c.pks.length (.seq r), xlData c (r.drop c.pks.length)))))
  else .seq (rows.map (xlData c))

/-- Each cell of a row with the name of its field. -/
def mapCells (g : String → Cell → Option Cell) (fields : List String) (row : List Cell) : Option (List Cell) :=
  (fields.zip row).mapM (fun p => g p.1 p.2)

/-- A loop over the tables that puts the contents made of each under its name (csvtd.py:257-274, sqlitetd.py:364-373). -/
def writeAll {K V : Type} [DecidableEq K] (name : String × TabClass → K) (content : String × TabClass → Option V) :
    List (String × TabClass) → PyDict K V → Option (PyDict K V)
  | [], dir => some dir
  | tc :: rest, dir => (content tc).bind (fun v => writeAll name content rest (PyDict.set dir (name tc) v))

/-- A loop over the tables that collects the arguments of the `TicDat` constructor (csvtd.py:114-120, sqlitetd.py:221-239,
xls.py:246-259); `rd` gives `some none` for a table that is not passed. -/
def gatherTables (rd : String × TabClass → Option (Option TableIn)) :
    List (String × TabClass) → Option (PyDict String TableIn)
  | [] => some []
  | tc :: rest => (rd tc).bind (fun x => (gatherTables rd rest).map (fun r =>
      match x with
      | none => r
      | some y => (tc.1, y) :: r))

/-! ### json -/

/-- `write_cell` of `make_json_dict` (jsontd.py:27-30), as called by `write_file`. -/
def jsonWriteCell (env : TextEnv) (cf : IOConf) (t f : String) (x : Cell) : Option Cell :=
  match x with
  | .dt _ => some (.str (env.text x))
  | x => writeCell env cf t f x

/-- `json.dumps` accepts null, Booleans, numbers and strings only. -/
def jsonable : Cell → Bool
  | .other _ => false
  | .dt _ => false
  | _ => true

/-- `make_row` (jsontd.py:34-37) and the encoding of its cells. -/
def jsonMakeRow (env : TextEnv) (cf : IOConf) (t : String) (fields : List String) (verbose : Bool) (row : List Cell) :
    Option RowIn :=
  if row.length = fields.length then
    (mapCells (jsonWriteCell env cf t) fields row).bind (fun vs =>
      if vs.all jsonable then some (if verbose then .dict (PyDict.ofList (fields.zip vs)) else .seq vs) else none)
  else none

/-- One table of `make_json_dict` (jsontd.py:32-46). -/
def jsonTable (env : TextEnv) (cf : IOConf) (verbose : Bool) (t : String) (c : TabClass) (tab : TabVal) :
    Option (List RowIn) :=
  (flatRows c tab).bind (fun rows => rows.mapM (jsonMakeRow env cf t c.fields verbose))

/-- One row of `_create_tic_dat_dict` (jsontd.py:175-179).  `zip` stops at the shorter side; a row that is a string is
taken as the list of its characters, other bare values are not iterable. -/
def jsonReadRow (env : TextEnv) (cf : IOConf) (t : String) (fields : List String) : RowIn → Option RowIn
  | .dict d => (d.mapM (fun p => (readCell env cf t p.1 p.2).map (fun v => (p.1, v)))).map .dict
  | .seq vs => (mapCells (readCell env cf t) fields vs).map .seq
  | .scalar (.str s) =>
    (mapCells (readCell env cf t) fields (s.toList.map (fun ch => Cell.str (String.ofList [ch])))).map .seq
  | .scalar _ => none

/-- One table of `_create_tic_dat_dict` (jsontd.py:172-180). -/
def jsonReadTable (env : TextEnv) (cf : IOConf) (t : String) (c : TabClass) (rows : List RowIn) : Option TableIn :=
  (rows.mapM (jsonReadRow env cf t c.fields)).map .seq

/-- `make_json_dict` (jsontd.py:25-47). -/
def jsonWrite (env : TextEnv) (cf : IOConf) (verbose : Bool) (schema : List (String × TabClass))
    (dat : PyDict String TabVal) : Option (PyDict String (List RowIn)) :=
  schema.mapM (fun tc => (PyDict.get? dat tc.1).bind (fun tab =>
    (jsonTable env cf verbose tc.1 tc.2 tab).map (fun rows => (tc.1, rows))))

/-- The key of the json file for a table (jsontd.py:163-170): `none` for two matching keys. -/
def jsonKeyOf (cenv : CaseEnv) (keys : List String) (t : String) : Option (Option String) :=
  match keys.filter (fun k => jsonMatches cenv t.toList k.toList) with
  | [] => some none
  | [k] => some (some k)
  | _ => none

/-- `_create_tic_dat_dict` (jsontd.py:160-180): the tables that are in the file. -/
def jsonTables (env : TextEnv) (cenv : CaseEnv) (cf : IOConf) (file : PyDict String (List RowIn)) :
    List (String × TabClass) → Option (PyDict String TableIn)
  | [] => some []
  | tc :: rest => (jsonKeyOf cenv (PyDict.keys file) tc.1).bind (fun ko =>
      match ko with
      | none => jsonTables env cenv cf file rest
      | some k => (PyDict.get? file k).bind (fun rows =>
          (jsonReadTable env cf tc.1 tc.2 rows).bind (fun x =>
            (jsonTables env cenv cf file rest).map (fun r => (tc.1, x) :: r))))

/-- One entry of the parameters table in `_parameter_table_post_read_adjustment` (ticdatfactory.py:1096-1111): the row of
a parameters table has one data field. -/
def postReadEntry (env : TextEnv) (params : Params) (p : KeyArg × RowVal) : KeyArg × RowVal :=
  match p with
  | (.one k, [(f, v)]) => (.one k, [(f, fixParam env params k v)])
  | p => p

/-- `_parameter_table_post_read_adjustment` (ticdatfactory.py:1084-1112) on the whole object: see `fixParams`; here entry
by entry, since each entry is assigned under its own key. -/
def postRead (env : TextEnv) (params : Params) (dat : PyDict String TabVal) : PyDict String TabVal :=
  if params = [] then dat
  else dat.map (fun p => if p.1 = "parameters" then
    (p.1, match p.2 with
      | .keyed d => .keyed (d.map (postReadEntry env params))
      | t => t) else p)

/-- json `create_tic_dat` (jsontd.py:67-106) without the pandas branch. -/
def jsonCreate (env : TextEnv) (cenv : CaseEnv) (cf : IOConf) (policy : DupPolicy) (schema : List (String × TabClass))
    (file : PyDict String (List RowIn)) : Option (PyDict String TabVal) :=
  (jsonTables env cenv cf file schema).bind (fun input =>
    (initDat policy schema input).map (postRead env cf.params))

/-! ### csv -/

/-- The default values and types a csv or Excel reader consults (csvtd.py:84-91); `none` for a field without default
value (a primary key field). -/
abbrev Defaults := String → String → Option Cell

/-- `_read_cell` (csvtd.py:92-110); the text of the cell, or `none` for a cell missing in a short line. -/
def csvReadCell (env : TextEnv) (cf : IOConf) (dv : Defaults) (t f : String) (x : Cell) : Option Cell :=
  let inner : Option Cell :=
    if t = "parameters" ∧ cf.params ≠ [] then some x
    else
      let dt := cf.types.at t f
      (if x = .str "" then
        (if (dt.map (·.nullable)).getD (decide (dv t f = some .none)) then some true
         else (readCell env cf t f .none).map Cell.numericish)
       else some false).map (fun isNone =>
        if isNone then .none
        else if (dt.map (·.numberAllowed)).getD ((dv t f).map Cell.numericish |>.getD false) then
          (match x with
           | .str s => ((env.float s).map floatCell).getD x
           | x => x)
        else x)
  inner.bind (readCell env cf t f)

/-- A csv file: lines of texts. -/
abbrev CsvFile := List (List String)

/-- The lines written for a table (csvtd.py:259-274).  The writer of the csv module writes the texts of the cells. -/
def csvTable (env : TextEnv) (cf : IOConf) (t : String) (c : TabClass) (writeHeader : Bool) (tab : TabVal) :
    Option CsvFile :=
  ((flatRows c tab).bind (fun rows => rows.mapM (fun row =>
    (mapCells (writeCell env cf t) c.fields row).map (fun vs => vs.map env.text)))).map (fun lines =>
      if writeHeader then c.fields :: lines else lines)

/-- The lines of a file as rows by field (csvtd.py:169-189).  Simplification: `DictReader` skips lines without any cell; the
writer writes none unless a table has no fields, which the assertion forbids. -/
def csvParse (cenv : CaseEnv) (fields : List (List Char)) (headersPresent : Bool) (lines : CsvFile) :
    Option (List (PyDict (List Char) Cell)) :=
  if headersPresent then
    match lines with
    | [] => some []
    | header :: rest => csvRows cenv fields (header.map String.toList) (rest.map (fun l => l.map Cell.str))
  else (lines.map (fun l => l.map Cell.str)).mapM (csvRowNoHeader fields)

/-- `_get_data` and `_create_table` (csvtd.py:169-189, 191-214). -/
def csvReadTable (env : TextEnv) (cenv : CaseEnv) (cf : IOConf) (dv : Defaults) (t : String) (c : TabClass)
    (headersPresent : Bool) (lines : CsvFile) : Option TableIn :=
  if c.fields = [] then none
  else (csvParse cenv (c.fields.map String.toList) headersPresent lines).bind (fun rows =>
    (rows.mapM (fun row => mapCells (csvReadCell env cf dv t) c.fields (row.map Prod.snd))).map (readerTable c))

/-- The name of the file of a table (csvtd.py:254-258). -/
def csvFileName (cenv : CaseEnv) (schema : List (String × TabClass)) (caseSpace : Bool) (t : String) : List Char :=
  tableNameOut cenv (schema.map (fun tc => tc.1.toList)) caseSpace t.toList ++ ".csv".toList

/-- `write_directory` (csvtd.py:216-274) on a directory with the files `dir`: the directory afterwards, or `none` if an
exception is raised.  Simplifications: file names that differ in case are different files; the check
`good_tic_dat_object` is not modelled here (`dat` has the right shape in the theorems). -/
def csvWrite (env : TextEnv) (cenv : CaseEnv) (cf : IOConf) (allowOverwrite writeHeader caseSpace : Bool)
    (schema : List (String × TabClass)) (dat : PyDict String TabVal) (dir : PyDict (List Char) CsvFile) :
    Option (PyDict (List Char) CsvFile) :=
  (csvWriteFiles cenv (PyDict.keys dir) (schema.map (fun tc => tc.1.toList)) allowOverwrite caseSpace).bind (fun _ =>
    writeAll (fun tc => csvFileName cenv schema caseSpace tc.1)
      (fun tc => (PyDict.get? dat tc.1).bind (csvTable env cf tc.1 tc.2 writeHeader)) schema dir)

/-- One table found in a directory (csvtd.py:111-120, 162-168, 191-214): `some none` if it has no file, or no rows. -/
def csvFind (env : TextEnv) (cenv : CaseEnv) (cf : IOConf) (dv : Defaults) (headersPresent : Bool)
    (dir : PyDict (List Char) CsvFile) (tc : String × TabClass) : Option (Option TableIn) :=
  (csvFilePath cenv (PyDict.keys dir) tc.1.toList).bind (fun path =>
    match path with
    | none => some none
    | some f => ((PyDict.get? dir f).bind (csvReadTable env cenv cf dv tc.1 tc.2 headersPresent)).map (fun x =>
        if x.size = 0 then none else some x))

/-- `create_tic_dat` of csv files (csvtd.py:56-83). -/
def csvCreate (env : TextEnv) (cenv : CaseEnv) (cf : IOConf) (dv : Defaults) (policy : DupPolicy) (headersPresent : Bool)
    (schema : List (String × TabClass)) (dir : PyDict (List Char) CsvFile) : Option (PyDict String TabVal) :=
  ((gatherTables (csvFind env cenv cf dv headersPresent dir) schema).bind (initDat policy schema)).map (postRead env cf.params)

end Ticdat
