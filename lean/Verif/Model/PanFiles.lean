import Verif.Model.PgPan
import Verif.Model.Names
import Verif.Model.SqliteIO
/-!
# Whole `PanDat` objects in csv directories, Excel files, SQLite files and json files

A directory of csv files, a book, a database and a json object are lists of named DataFrames.  What pandas makes of a
DataFrame that it has written and reads again is a parameter (`pandas`), which may raise.
-/
namespace Ticdat

/-- The DataFrames in a file or directory, by name. -/
abbrev PanStore := PyDict String Frame

/-- What the writers hand to pandas, table by table: `good_pan_dat_object`, then `_pre_write_adjustment`
(pandatio.py:160-162, 214-218, 360-363, 486-489, 612-615). -/
def panHanded (env : TextEnv) (cf : IOConf) (schema : List (String × TabClass)) (dat : PyDict String Frame) :
    Option (List (String × Frame)) :=
  if schema.all (fun tc => ((PyDict.get? dat tc.1).map (goodPanTable tc.2)).getD false) then
    schema.mapM (fun tc => (PyDict.get? dat tc.1).bind (fun v => (panPreAny env cf tc.1 tc.2 v).map (fun w => (tc.1, w))))
  else none

/-- The name under which a table is written (pandatio.py:223-225, 243, 366-368, 492-494, 617-619). -/
def panNameOut (cenv : CaseEnv) (schema : List (String × TabClass)) (caseSpace : Bool) (t : String) : List Char :=
  tableNameOut cenv (schema.map (fun tc => tc.1.toList)) caseSpace t.toList

/-- `CsvPanFactory.write_directory` (pandatio.py:340-374), into a directory that may have files.  Simplifications: there are
no directories in the directory, and names of files are case-sensitive. -/
def csvPanWrite (env : TextEnv) (cenv : CaseEnv) (cf : IOConf) (schema : List (String × TabClass)) (caseSpace : Bool)
    (dat : PyDict String Frame) (dir : PanStore) : Option PanStore :=
  (panHanded env cf schema dat).map (List.foldl (fun d p =>
    PyDict.set d (String.ofList (panNameOut cenv schema caseSpace p.1 ++ ".csv".toList)) p.2) dir)

/-- `XlsPanFactory.write_file` (pandatio.py:597-625): a new book.  Simplification: the engines refuse or rename sheets whose
names agree up to case, here there is no such check. -/
def xlsPanWrite (env : TextEnv) (cenv : CaseEnv) (cf : IOConf) (schema : List (String × TabClass)) (caseSpace : Bool)
    (dat : PyDict String Frame) : Option PanStore :=
  if sheetNamesDiffer (schema.map (fun tc => tc.1.toList)) then
    (panHanded env cf schema dat).map (List.foldl (fun d p =>
      PyDict.set d (String.ofList ((panNameOut cenv schema caseSpace p.1).take longestSheet)) p.2) [])
  else none

/-- `if_exists` of `to_sql`. -/
inductive IfExists | fail | replace | append
  deriving DecidableEq

/-- Rows are inserted by the names of their columns; a column that the table does not have is an error. -/
def Frame.append (old w : Frame) : Option Frame :=
  if w.cols.all old.cols.contains then
    some { old with rows := old.rows ++ w.rows.map (fun r => ([], old.cols.map (fun l => (w.cell r.2 l).getD .none))) }
  else none

/-- `df.to_sql(name, con, if_exists)` on SQLite: pandas looks for the name as it is; SQLite does not create a table whose name
agrees with that of another one up to case. -/
def toSql (cenv : CaseEnv) (mode : IfExists) (p : String × Frame) (db : PanStore) : Option PanStore :=
  match PyDict.get? db p.1 with
  | some old =>
    match mode with
    | .fail => none
    | .replace => some (PyDict.set db p.1 p.2)
    | .append => (old.append p.2).map (PyDict.set db p.1)
  | none =>
    if db.any (fun q => decide (cenv.lower q.1.toList = cenv.lower p.1.toList)) then none
    else some (PyDict.set db p.1 p.2)

/-- `SqlPanFactory.write_file` (pandatio.py:457-500): the database, and whether an exception was raised. -/
def sqlPanWrite (env : TextEnv) (cenv : CaseEnv) (cf : IOConf) (schema : List (String × TabClass)) (caseSpace : Bool)
    (mode : IfExists) (dat : PyDict String Frame) (db : PanStore) : PanStore × Bool :=
  match panHanded env cf schema dat with
  | none => (db, true)
  | some ws => runSteps (toSql cenv mode) (ws.map (fun p => (String.ofList (panNameOut cenv schema caseSpace p.1), p.2))) db

/-- The one name that matches, if there is one; several raise. -/
def onlyName (st : PanStore) (p : List Char → Bool) : Option (Option Frame) :=
  match (PyDict.keys st).filter (fun n => p n.toList) with
  | [] => some none
  | [n] => some (PyDict.get? st n)
  | _ => none

/-- `CsvPanFactory._get_table_names` for one table (pandatio.py:328-339). -/
def csvPanFind (cenv : CaseEnv) (dir : PanStore) (t : String) : Option (Option Frame) :=
  onlyName dir (csvMatches cenv t.toList)

/-- `XlsPanFactory._get_sheet_names` for one table (pandatio.py:587-595). -/
def xlsPanFind (cenv : CaseEnv) (book : PanStore) (t : String) : Option (Option Frame) :=
  onlyName book (sheetMatches cenv t.toList)

/-- `SqlPanFactory._get_table_names` for one table, and the query (pandatio.py:417-422, 441-456). -/
def sqlPanFind (cenv : CaseEnv) (db : PanStore) (t : String) : Option (Option Frame) :=
  match (underscoreReplacements t.toList).filter (fun n =>
      db.any (fun p => decide (cenv.lower p.1.toList = cenv.lower n))) with
  | [] => some none
  | [n] => some ((db.find? (fun p => decide (cenv.lower p.1.toList = cenv.lower n))).map Prod.snd)
  | _ => none

/-- One table of a reader (pandatio.py:121-136, 305-326, 417-439, 557-578; `_clean_pandat_creator`, 37-50): `found` is what was
written under its name, `missing` gives the missing fields of a DataFrame in the order of iteration, `prune` tells whether
trailing rows without values are dropped. -/
def panFileTable (env : TextEnv) (lower : String → String) (cf : IOConf) (json prune fill : Bool)
    (missing : TabClass → Frame → List String) (pandas : String → Frame → Option Frame) (t : String) (c : TabClass)
    (found : Option Frame) : Option Frame :=
  (match found with
    | none => some (emptyFrame c)
    | some v => (pandas t v).bind (fun u => panReadTable c fill (missing c u) u)).bind
  (fun u => (panPostAny env lower cf true json t c u).bind (fun w => if prune then w.prune else some w))

/-- A reader: `find` is how the DataFrame of a table is found. -/
def panFileRead (env : TextEnv) (lower : String → String) (cf : IOConf) (json prune fill : Bool)
    (missing : TabClass → Frame → List String) (pandas : String → Frame → Option Frame)
    (find : String → Option (Option Frame)) (schema : List (String × TabClass)) : Option (PyDict String Frame) :=
  schema.mapM (fun tc => (find tc.1).bind (fun o =>
    (panFileTable env lower cf json prune fill missing pandas tc.1 tc.2 o).map (fun w => (tc.1, w))))

/-- `CsvPanFactory.create_pan_dat` (pandatio.py:274-326). -/
def csvPanRead (env : TextEnv) (cenv : CaseEnv) (lower : String → String) (cf : IOConf) (fill : Bool)
    (missing : TabClass → Frame → List String) (pandas : String → Frame → Option Frame) (schema : List (String × TabClass))
    (dir : PanStore) : Option (PyDict String Frame) :=
  panFileRead env lower cf false false fill missing pandas (csvPanFind cenv dir) schema

/-- `XlsPanFactory.create_pan_dat` (pandatio.py:521-578); `prune` is `xlsx_trailing_empty_rows == "prune"`. -/
def xlsPanRead (env : TextEnv) (cenv : CaseEnv) (lower : String → String) (cf : IOConf) (prune fill : Bool)
    (missing : TabClass → Frame → List String) (pandas : String → Frame → Option Frame) (schema : List (String × TabClass))
    (book : PanStore) : Option (PyDict String Frame) :=
  if sheetNamesDiffer (schema.map (fun tc => tc.1.toList)) then
    panFileRead env lower cf false prune fill missing pandas (xlsPanFind cenv book) schema
  else none

/-- `SqlPanFactory.create_pan_dat` (pandatio.py:393-439). -/
def sqlPanRead (env : TextEnv) (cenv : CaseEnv) (lower : String → String) (cf : IOConf) (fill : Bool)
    (missing : TabClass → Frame → List String) (pandas : String → Frame → Option Frame) (schema : List (String × TabClass))
    (db : PanStore) : Option (PyDict String Frame) :=
  panFileRead env lower cf false false fill missing pandas (sqlPanFind cenv db) schema

/-! ### json -/

/-- A value in a json object: a list of rows, an object (what pandas makes of a DataFrame), or neither. -/
inductive JPan
  | lol (rows : List (List Cell))
  | obj (v : Frame)
  | other
  deriving DecidableEq

def JPan.isLol : JPan → Bool
  | .lol _ => true
  | _ => false

def JPan.isObj : JPan → Bool
  | .obj _ => true
  | _ => false

/-- `JsonPanFactory.write_file` (pandatio.py:148-180).  Simplification: the keys are not sorted. -/
def jsonPanWrite (env : TextEnv) (cf : IOConf) (schema : List (String × TabClass)) (dat : PyDict String Frame) :
    Option (PyDict String JPan) :=
  (panHanded env cf schema dat).bind (fun ws => schema.mapM (fun tc => (PyDict.get? ws tc.1).bind (fun w =>
    (w.rows.mapM (fun r => tc.2.fields.mapM (fun f => (w.cell r.2 (.name f)).map (jsonPanCell env)))).map
      (fun rows => (tc.1, JPan.lol rows)))))

/-- `JsonPanFactory.write_file_pd` (pandatio.py:182-253): the keys; the values are what pandas makes of the DataFrames. -/
def jsonPanWritePd (env : TextEnv) (cenv : CaseEnv) (cf : IOConf) (schema : List (String × TabClass)) (caseSpace : Bool)
    (dat : PyDict String Frame) : Option (PyDict String JPan) :=
  (panHanded env cf schema dat).map (List.foldl (fun d p =>
    PyDict.set d (String.ofList (panNameOut cenv schema caseSpace p.1)) (JPan.obj p.2)) [])

/-- `JsonPanFactory._get_table_names` for one table (pandatio.py:138-147). -/
def jsonPanFind (cenv : CaseEnv) (file : PyDict String JPan) (t : String) : Option (Option JPan) :=
  match (PyDict.keys file).filter (fun n => decide (unblank (cenv.lower n.toList) = cenv.lower t.toList)) with
  | [] => some none
  | [n] => some (PyDict.get? file n)
  | _ => none

/-- A table of the list-of-lists format (pandatio.py:107-111, 37-50). -/
def jsonLolTable (env : TextEnv) (lower : String → String) (cf : IOConf) (t : String) (c : TabClass) : Option JPan → Option Frame
  | some (.lol rows) => (panReadLol c rows).bind (panPostAny env lower cf true true t c)
  | _ => panPostAny env lower cf true true t c (emptyFrame c)

/-- `JsonPanFactory.create_pan_dat` (pandatio.py:70-136): all values of the object are lists, or all are objects. -/
def jsonPanRead (env : TextEnv) (cenv : CaseEnv) (lower : String → String) (cf : IOConf) (fill : Bool)
    (missing : TabClass → Frame → List String) (pandas : String → Frame → Option Frame) (schema : List (String × TabClass))
    (file : PyDict String JPan) : Option (PyDict String Frame) :=
  if file.all (fun p => p.2.isLol) then
    schema.mapM (fun tc => (jsonPanFind cenv file tc.1).bind (fun o =>
      (jsonLolTable env lower cf tc.1 tc.2 o).map (fun w => (tc.1, w))))
  else if file.all (fun p => p.2.isObj) then
    panFileRead env lower cf true false fill missing pandas (fun t => (jsonPanFind cenv file t).map (fun o =>
      o.bind (fun j => match j with
        | .obj v => some v
        | _ => none))) schema
  else none

end Ticdat
