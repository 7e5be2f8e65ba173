import Verif.Model.SqliteIO
import Verif.Model.ExcelIO
import Verif.Model.Good
/-!
# Generator tables that are read from files

The readers give a generator table as a function that reads the file when it is called.  A data object is therefore
modelled in two parts: the tables that are held in memory, and for each generator table what its function remembers of
where to read.
-/
namespace Ticdat

/-- A data object of a reader: the tables in memory, and what the function of each generator table remembers. -/
structure LazyObj (S : Type) where
  eager : PyDict String TabVal
  lazy : PyDict String S

/-- A reader on a schema with generator tables `gens` (csvtd.py:114-120 and 191-201, sqlitetd.py:205-213,
xls.py:235-262): `rd` reads the tables that are no generator tables, `probe` makes the function of a generator table and
goes through its rows once, which the constructor does to check them (ticdatfactory.py:776-861).  `none` is a raised
exception. -/
def lazyCreate {S : Type} (rd : List (String × TabClass) → Option (PyDict String TabVal))
    (probe : String × TabClass → Option S) (gens : List String) (schema : List (String × TabClass)) : Option (LazyObj S) :=
  (rd (schema.filter (fun tc => decide (tc.1 ∉ gens)))).bind (fun e =>
    ((schema.filter (fun tc => decide (tc.1 ∈ gens))).mapM (fun tc => (probe tc).map (fun s => (tc.1, s)))).map (fun l =>
      ⟨e, l⟩))

/-- What a writer finds for a table (csvtd.py:266-274, sqlitetd.py:284-309, xls.py:466-476): the table in memory, or the
rows `rows` that the function of a generator table gives now. -/
def LazyObj.tab {S : Type} (obj : LazyObj S) (rows : String × TabClass → S → Option (List RowVal))
    (tc : String × TabClass) : Option TabVal :=
  match PyDict.get? obj.lazy tc.1 with
  | some s => (rows tc s).map .plain
  | none => PyDict.get? obj.eager tc.1

/-- Rows as the reader makes them become rows of the table (ticdatfactory.py:733-740). -/
def lazyRows (c : TabClass) (x : Option TableIn) : Option (List RowVal) := x.bind (fun x => x.iter.mapM (initRow c))

/-- The same for a table that may not be found: it has no rows. -/
def foundRows (c : TabClass) : Option TableIn → Option (List RowVal)
  | none => some []
  | some y => lazyRows c (some y)

/-- The check of the constructor on the rows of a generator table (ticdatfactory.py:736-742). -/
def lazyGood (c : TabClass) (x : TableIn) : Bool := goodRows false c.dfs x.iter

/-! ### csv -/

/-- `list(dat.t())` for a generator table of a csv directory (csvtd.py:197-201): the path was fixed when the object was
made, the file is opened each time.  Without a file the table was left out (csvtd.py:193-194, 120) and is empty. -/
def csvLazyRows (env : TextEnv) (cenv : CaseEnv) (cf : IOConf) (dv : Defaults) (headers : Bool)
    (dir : PyDict (List Char) CsvFile) (tc : String × TabClass) : Option (List Char) → Option (List RowVal)
  | none => some []
  | some f => lazyRows tc.2 ((PyDict.get? dir f).bind (csvReadTable env cenv cf dv tc.1 tc.2 headers))

/-- The function of a generator table of a csv directory (csvtd.py:191-201). -/
def csvProbe (env : TextEnv) (cenv : CaseEnv) (cf : IOConf) (dv : Defaults) (headers : Bool)
    (dir : PyDict (List Char) CsvFile) (tc : String × TabClass) : Option (Option (List Char)) :=
  (csvFilePath cenv (PyDict.keys dir) tc.1.toList).bind (fun path =>
    match path with
    | none => some none
    | some f => ((PyDict.get? dir f).bind (csvReadTable env cenv cf dv tc.1 tc.2 headers)).bind (fun x =>
        if lazyGood tc.2 x then some (some f) else none))

/-- `create_tic_dat` of csv files with generator tables (csvtd.py:56-83, 111-120). -/
def csvLazyCreate (env : TextEnv) (cenv : CaseEnv) (cf : IOConf) (dv : Defaults) (policy : DupPolicy) (headers : Bool)
    (gens : List String) (schema : List (String × TabClass)) (dir : PyDict (List Char) CsvFile) :
    Option (LazyObj (Option (List Char))) :=
  lazyCreate (fun s => csvCreate env cenv cf dv policy headers s dir) (csvProbe env cenv cf dv headers dir) gens schema

/-- The loop of `write_directory` (csvtd.py:257-274) where contents may be read from files: `open(f, 'w')` empties the
file before the rows are asked for.  Simplification: the header is still in the buffer of the writer then (a header that
is longer than the buffer is a header without rows). -/
def csvLazyLoop (name : String × TabClass → List Char)
    (content : PyDict (List Char) CsvFile → String × TabClass → Option CsvFile) :
    List (String × TabClass) → PyDict (List Char) CsvFile → Option (PyDict (List Char) CsvFile)
  | [], dir => some dir
  | tc :: rest, dir =>
    (content (PyDict.set dir (name tc) []) tc).bind (fun v =>
      csvLazyLoop name content rest (PyDict.set (PyDict.set dir (name tc) []) (name tc) v))

/-- `write_directory` (csvtd.py:216-274) of an object with generator tables: `src` is the directory the generator tables
read if it is another directory, `none` if it is the directory that is written. -/
def csvLazyWrite (env : TextEnv) (cenv : CaseEnv) (cf : IOConf) (dv : Defaults) (allowOverwrite headers caseSpace : Bool)
    (schema : List (String × TabClass)) (obj : LazyObj (Option (List Char))) (src : Option (PyDict (List Char) CsvFile))
    (dir : PyDict (List Char) CsvFile) : Option (PyDict (List Char) CsvFile) :=
  (csvWriteFiles cenv (PyDict.keys dir) (schema.map (fun tc => tc.1.toList)) allowOverwrite caseSpace).bind (fun _ =>
    csvLazyLoop (fun tc => csvFileName cenv schema caseSpace tc.1)
      (fun dir' tc => (obj.tab (csvLazyRows env cenv cf dv headers (src.getD dir')) tc).bind
        (csvTable env cf tc.1 tc.2 headers)) schema dir)

/-! ### SQLite -/

/-- `list(dat.t())` for a generator table of a SQLite database (sqlitetd.py:196-204): the name of the table was fixed when
the object was made; a table that was missing was left out (sqlitetd.py:210-213) and is empty. -/
def sqlLazyRows (env : TextEnv) (cenv : CaseEnv) (cf : IOConf) (db : SqlDb) (tc : String × TabClass) :
    Option String → Option (List RowVal)
  | none => some []
  | some n => lazyRows tc.2 ((sqlSelect cenv db n).bind (fun rows =>
      (rows.mapM (mapCells (sqlReadCell env cenv cf tc.1) tc.2.fields)).map (readerTable tc.2)))

/-- The function of a generator table of a SQLite database (sqlitetd.py:196-213). -/
def sqlProbe (env : TextEnv) (cenv : CaseEnv) (cf : IOConf) (db : SqlDb) (tc : String × TabClass) : Option (Option String) :=
  (sqlTableName cenv db tc.1).bind (fun name =>
    match name with
    | none => some none
    | some n => ((sqlSelect cenv db n).bind (fun rows =>
        (rows.mapM (mapCells (sqlReadCell env cenv cf tc.1) tc.2.fields)).map (readerTable tc.2))).bind (fun x =>
          if lazyGood tc.2 x then some (some n) else none))

/-- `create_tic_dat` with generator tables (sqlitetd.py:70-95, 205-239). -/
def sqlLazyCreate (env : TextEnv) (cenv : CaseEnv) (cf : IOConf) (policy : DupPolicy) (gens : List String)
    (schema : List (String × TabClass)) (db : SqlDb) : Option (LazyObj (Option String)) :=
  lazyCreate (fun s => sqlCreate env cenv cf policy s db) (sqlProbe env cenv cf db) gens schema

/-- `write_db_data` (sqlitetd.py:323-356) of an object with generator tables that read the database `src`, which may be
the one that is written: all rows are collected (sqlitetd.py:282-310, 355), over connections of their own, before the
first is inserted and before anything is committed. -/
def sqlLazyWrite (env : TextEnv) (senv : SqlEnv) (cenv : CaseEnv) (cf : IOConf) (dv : Defaults) (allowOverwrite : Bool)
    (schema : List (String × TabClass)) (obj : LazyObj (Option String)) (src : SqlDb) (db : Option SqlDb) : Option SqlDb :=
  (sqlOpen cenv schema db).bind (fun db =>
    if schema.all (fun tc => decide (sqlTableName cenv db tc.1 = some (some tc.1)) &&
        (allowOverwrite || decide (sqlSelect cenv db tc.1 = some []))) then
      writeAll (fun tc => tc.1) (fun tc => (obj.tab (sqlLazyRows env cenv cf src) tc).bind
        (sqlRows env senv cf dv false tc.1 tc.2)) schema db
    else none)

/-! ### Excel -/

/-- `list(dat.t())` for a generator table of an Excel file (xls.py:213-226): the sheet is looked for each time; a file that
does not exist raises (xls.py:180-181). -/
def xlLazyRows (env : XlEnv) (cf : IOConf) (dv : Defaults) (o : XlOpts) (file : Option Book) (tc : String × TabClass) :
    Unit → Option (List RowVal)
  | () => file.bind (fun book => (xlFind env cf dv o book tc).bind (foundRows tc.2))

/-- The function of a generator table of an Excel file (xls.py:213-226, 260-262). -/
def xlProbe (env : XlEnv) (cf : IOConf) (dv : Defaults) (o : XlOpts) (book : Book) (tc : String × TabClass) : Option Unit :=
  (xlFind env cf dv o book tc).bind (fun x =>
    match x with
    | none => some ()
    | some y => if lazyGood tc.2 y then some () else none)

/-- `create_tic_dat` with generator tables (xls.py:102-168, 227-262): refused if `treat_inf_as_infinity`, which is the
default (xls.py:146-147). -/
def xlLazyCreate (env : XlEnv) (cf : IOConf) (dv : Defaults) (policy : DupPolicy) (o : XlOpts) (gens : List String)
    (schema : List (String × TabClass)) (book : Book) : Option (LazyObj Unit) :=
  if sheetNamesDiffer (schema.map (fun tc => tc.1.toList)) && !(o.treatInf && !gens.isEmpty) then
    lazyCreate (fun s => readTables s) (xlProbe env cf dv o book) gens schema
  else none
where
  /-- The tables that are no generator tables (xls.py:235-259, 164). -/
  readTables (s : List (String × TabClass)) : Option (PyDict String TabVal) :=
    ((gatherTables (xlFind env cf dv o book) s).bind (initDat policy s)).map (postRead env.text cf.params)

/-- What is at the path that is written when the rows of the generator tables are asked for: an `.xlsx` file has been
removed by then (xls.py:450-451), an `.xls` file is still there (444-446). -/
def xlAtWrite (kind : XlKind) (file : Option Book) : Option Book := if kind = .xls then file else none

/-- The file the generator tables find: `src`, or the one that is written. -/
def xlSource (kind : XlKind) (file : Option Book) : Option Book → Option Book
  | some b => some b
  | none => xlAtWrite kind file

/-- `write_file` (xls.py:376-477) of an object with generator tables: what is at the path afterwards, and is an exception
raised.  `src` is the file the generator tables read if it is another one, `none` if it is the one that is written. -/
def xlLazyWrite (env : XlEnv) (cf : IOConf) (dv : Defaults) (o : XlOpts) (kind : XlKind) (allowOverwrite caseSpace : Bool)
    (schema : List (String × TabClass)) (obj : LazyObj Unit) (src : Option Book) (file : Option Book) : Option Book × Bool :=
  if sheetNamesDiffer (schema.map (fun tc => tc.1.toList)) && (allowOverwrite || file.isNone) then
    if (schema.map (fun tc => xlSheetName env.case schema caseSpace tc.1)).all (okSheetName kind) &&
        decide ((schema.map (fun tc => env.case.lower (xlSheetName env.case schema caseSpace tc.1))).Nodup) then
      match writeAll (fun tc => xlSheetName env.case schema caseSpace tc.1)
          (fun tc => (obj.tab (xlLazyRows env cf dv o (xlSource kind file src)) tc).bind (xlTable env cf kind tc.1 tc.2)) schema [] with
      | some b => (some b, false)
      | none => (xlAtWrite kind file, true)
    else (xlAtWrite kind file, true)
  else (file, true)

end Ticdat
