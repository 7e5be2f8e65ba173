import Verif.Model.JsonFile
import Verif.Model.ExcelIO
import Verif.Model.SqlFile
/-!
# What the writers of a `TicDatFactory` leave on the disk

The file system is a dictionary from paths to files and directories; what is in a file depends on its kind (lines of texts, a
book, statements, a database).  Each writer is modelled as the state of the file system afterwards and whether an exception was
raised, also for writes that raise half way.  Simplifications: no generic and no generator tables (C75, C76); a path can be
opened for writing unless it is a directory; the file at the path of a SQLite database is a database; paths are spelled in one
way, and `dir_path` does not end in a slash.
-/
namespace Ticdat

/-- What is at a path. -/
inductive Node (A : Type) where
  | file (a : A)
  | dir

/-- The file system. -/
abbrev FileSys (A : Type) := PyDict String (Node A)

/-- `os.path.isfile`. -/
def FileSys.isFile {A : Type} (disk : FileSys A) (path : String) : Bool :=
  match PyDict.get? disk path with
  | some (.file _) => true
  | _ => false

/-- `os.path.isdir`. -/
def FileSys.isDir {A : Type} (disk : FileSys A) (path : String) : Bool :=
  match PyDict.get? disk path with
  | some .dir => true
  | _ => false

/-- `good_tic_dat_object(tic_dat)` (ticdatfactory.py:1635-1637) for a factory with these tables. -/
def goodDat (schema : List (String × TabClass)) (dat : PyDict String TabVal) : Bool :=
  decide (goodTicDatObject false (schema.map (fun tc => (tc.1, .plain tc.2))) (dat.map (fun p => (p.1, .tab p.2.asInput))) =
    some true)

/-! ### csv -/

/-- `os.path.join(dir_path, name + ".csv")` (csvtd.py:248, 258). -/
def csvPath (dir : String) (name : List Char) : String := dir ++ ("/" ++ String.ofList name)

/-- The rows of a table one by one (csvtd.py:266-274), as in `flatRows`. -/
def rowsOneByOne (c : TabClass) : TabVal → List (Option (List Cell))
  | .keyed d => d.map (fun p => (dataCells c p.2).map (keyCells p.1 ++ ·))
  | .plain rows => rows.map (dataCells c)

/-- `writer.writerow(infinty_io_dict(row))` (csvtd.py:263-264, 270, 274). -/
def csvLine (env : TextEnv) (cf : IOConf) (t : String) (c : TabClass) (row : Option (List Cell)) : Option (List String) :=
  row.bind (fun row => (mapCells (writeCell env cf t) c.fields row).map (fun vs => vs.map env.text))

/-- The lines that are written until one raises, and whether one did. -/
def linesUntil {A B : Type} (line : A → Option B) : List A → List B × Bool
  | [] => ([], false)
  | a :: rest =>
    match line a with
    | none => ([], true)
    | some l => (l :: (linesUntil line rest).1, (linesUntil line rest).2)

/-- The file of one table (csvtd.py:259-274): the file is closed, and so has the lines written before, if a line raises. -/
def csvFileLines (env : TextEnv) (cf : IOConf) (t : String) (c : TabClass) (header : Bool) (tab : TabVal) : CsvFile × Bool :=
  let r := linesUntil (csvLine env cf t c) (rowsOneByOne c tab)
  (if header then c.fields :: r.1 else r.1, r.2)

/-- The loop over the tables (csvtd.py:257-274). -/
def csvWriteTables (env : TextEnv) (cf : IOConf) (header : Bool) (pathOf : String → String) (dat : PyDict String TabVal) :
    List (String × TabClass) → FileSys CsvFile → FileSys CsvFile × Bool
  | [], disk => (disk, false)
  | tc :: rest, disk =>
    if disk.isDir (pathOf tc.1) then (disk, true)
    else
      match PyDict.get? dat tc.1 with
      | none => (PyDict.set disk (pathOf tc.1) (.file (if header then [tc.2.fields] else [])), true)
      | some tab =>
        let out := csvFileLines env cf tc.1 tc.2 header tab
        if out.2 then (PyDict.set disk (pathOf tc.1) (.file out.1), true)
        else csvWriteTables env cf header pathOf dat rest (PyDict.set disk (pathOf tc.1) (.file out.1))

/-- csv `write_directory` (csvtd.py:215-274); `dialectOk` tells if the dialect is known, `mkdirOk` if `os.mkdir` succeeds. -/
def csvWriteDisk (env : TextEnv) (cenv : CaseEnv) (cf : IOConf) (dialectOk mkdirOk allowOverwrite header caseSpace : Bool)
    (schema : List (String × TabClass)) (dat : PyDict String TabVal) (dir : String) (disk : FileSys CsvFile) :
    FileSys CsvFile × Bool :=
  if !dialectOk then (disk, true)
  else if disk.isFile dir then (disk, true)
  else if !goodDat schema dat then (disk, true)
  else if !allowOverwrite && schema.any (fun tc => PyDict.has disk (csvPath dir (tc.1.toList ++ ".csv".toList))) then (disk, true)
  else if !disk.isDir dir && !mkdirOk then (disk, true)
  else csvWriteTables env cf header (fun t => csvPath dir (csvFileName cenv schema caseSpace t)) dat schema
    (if disk.isDir dir then disk else PyDict.set disk dir .dir)

/-! ### Excel -/

/-- `file_path.endswith(suffix)`. -/
def hasSuffix (path : String) (suffix : String) : Bool := suffix.toList.isSuffixOf path.toList

/-- Excel `write_file` (xls.py:376-477).  An `.xls` file is removed and saved once its book is complete (xls.py:444-446), an
`.xlsx` file is removed first (xls.py:450-452) and written when its book is closed (xls.py:477), which is not reached if
something raises. -/
def xlWriteDisk (env : XlEnv) (cf : IOConf) (allowOverwrite caseSpace : Bool) (schema : List (String × TabClass))
    (dat : PyDict String TabVal) (path : String) (disk : FileSys Book) : FileSys Book × Bool :=
  if !sheetNamesDiffer (schema.map (fun tc => tc.1.toList)) then (disk, true)
  else if !(hasSuffix path ".xls" || hasSuffix path ".xlsx") then (disk, true)
  else if !goodDat schema dat then (disk, true)
  else if disk.isDir path then (disk, true)
  else if !allowOverwrite && PyDict.has disk path then (disk, true)
  else if hasSuffix path ".xls" then
    match xlWrite env cf .xls allowOverwrite caseSpace schema dat none with
    | none => (disk, true)
    | some book => (PyDict.set (PyDict.erase disk path) path (.file book), false)
  else
    match xlWrite env cf .xlsx allowOverwrite caseSpace schema dat none with
    | none => (PyDict.erase disk path, true)
    | some book => (PyDict.set (PyDict.erase disk path) path (.file book), false)

/-! ### SQLite -/

/-- `write_sql_file` (sqlitetd.py:358-390).  The file is opened, and so emptied, before the statements are made
(sqlitetd.py:386-390); `fmt` is the text of a statement (`SqlText`), `schemaSql` the statements of `_get_schema_sql`, if asked
for. -/
def sqlTextWriteDisk (env : TextEnv) (cf : IOConf) (fmt : SqlInsert → String) (schemaSql : List String) (allowOverwrite : Bool)
    (schema : List (String × TabClass)) (dat : PyDict String TabVal) (path : String) (disk : FileSys (List String)) :
    FileSys (List String) × Bool :=
  if !allowOverwrite && PyDict.has disk path then (disk, true)
  else if disk.isDir path then (disk, true)
  else
    match sqlData env cf dat schema with
    | none => (PyDict.set disk path (.file []), true)
    | some stmts => (PyDict.set disk path (.file (schemaSql ++ stmts.map fmt)), false)

/-- `Create TABLE` (sqlitetd.py:320-322) until one raises: SQLite refuses two columns that agree up to case.  These statements
are not part of a transaction. -/
def sqlCreateTables (cenv : CaseEnv) : SqlFile → SqlFile × Bool
  | [] => ([], false)
  | p :: rest =>
    if (p.2.cols.map (fun c => cenv.lower c.name.toList)).Nodup then
      (p :: (sqlCreateTables cenv rest).1, (sqlCreateTables cenv rest).2)
    else ([], true)

/-- `write_db_data` (sqlitetd.py:323-356). -/
def sqliteWriteDisk (env : TextEnv) (senv : SqlEnv) (cenv : CaseEnv) (cf : IOConf) (dv : Defaults) (allowOverwrite : Bool)
    (schema : List (String × TabClass)) (dat : PyDict String TabVal) (path : String) (disk : FileSys SqlFile) :
    FileSys SqlFile × Bool :=
  if !goodDat schema dat then (disk, true)
  else
    match PyDict.get? disk path with
    | some .dir => (disk, true)
    | some (.file db) =>
      let r := sqlFileWrite env senv cenv cf allowOverwrite schema dat db
      (PyDict.set disk path (.file r.1), r.2)
    | none =>
      let new := sqlCreateTables cenv (sqlSchemaFile cf dv schema)
      if new.2 then (PyDict.set disk path (.file new.1), true)
      else
        let r := sqlFileWrite env senv cenv cf allowOverwrite schema dat new.1
        (PyDict.set disk path (.file r.1), r.2)

end Ticdat
