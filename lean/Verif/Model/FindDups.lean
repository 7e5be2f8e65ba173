import Verif.Model.Utils
import Verif.Model.Mdb
import Verif.Model.Pg
import Verif.Model.ExcelIO
/-!
# `find_duplicates` of the file and database readers

The counting loops are in `Verif.Model.Utils`; here is what each reader feeds to them.
-/
namespace Ticdat

/-- The tables with a primary key: `{k:v for k,v in tdf.primary_key_fields.items() if v}` (utils.py:739, csvtd.py:147-148,
xls.py:298). -/
def keyedOnly (schema : List (String × TabClass)) : List (String × TabClass) :=
  schema.filter (fun tc => decide (tc.2.pks ≠ []))

/-- Their primary key fields. -/
def pkFieldsOf (schema : List (String × TabClass)) : List (String × List String) :=
  (keyedOnly schema).map (fun tc => (tc.1, tc.2.pks))

/-- A loop over the tables that collects the records of those that are present, as rows by field (csvtd.py:149-156,
xls.py:300-310); `rd` gives `some none` for a table without file or sheet. -/
def collectRecords (flds : TabClass → List String) (rd : String × TabClass → Option (Option (List (List Cell)))) :
    List (String × TabClass) → Option (PyDict String (List (PyDict String Cell)))
  | [] => some []
  | tc :: rest => (rd tc).bind (fun x => (collectRecords flds rd rest).map (fun r =>
      match x with
      | none => r
      | some rows => (tc.1, rows.map (fun row => (flds tc.2).zip row)) :: r))

/-! ### csv -/

/-- The records `_get_data` yields for the file of a table (csvtd.py:162-189): `some none` if there is no file. -/
def csvRecords (env : TextEnv) (cenv : CaseEnv) (cf : IOConf) (dv : Defaults) (headersPresent : Bool)
    (dir : PyDict (List Char) CsvFile) (tc : String × TabClass) : Option (Option (List (List Cell))) :=
  (csvFilePath cenv (PyDict.keys dir) tc.1.toList).bind (fun path =>
    match path with
    | none => some none
    | some f => ((PyDict.get? dir f).bind (fun lines =>
        (csvParse cenv (tc.2.fields.map String.toList) headersPresent lines).bind (fun rows =>
          rows.mapM (fun row => mapCells (csvReadCell env cf dv tc.1) tc.2.fields (row.map Prod.snd))))).map some)

/-- `find_duplicates` of csv files (csvtd.py:121-161). -/
def csvDups (env : TextEnv) (cenv : CaseEnv) (cf : IOConf) (dv : Defaults) (headersPresent : Bool)
    (schema : List (String × TabClass)) (dir : PyDict (List Char) CsvFile) :
    Option (PyDict String (PyDict (PKey Cell) Nat)) :=
  (collectRecords (fun c => c.fields) (csvRecords env cenv cf dv headersPresent dir) (keyedOnly schema)).bind (fun recs =>
    csvFindDuplicates (pkFieldsOf schema) (fun t => PyDict.has recs t) (fun t => (PyDict.get? recs t).getD []))

/-! ### Excel -/

/-- The records of the sheet of a table as `create_tic_dat` reads them (xls.py:187-198, 241-259). -/
def xlRecords (env : XlEnv) (cf : IOConf) (dv : Defaults) (o : XlOpts) (book : Book) (tc : String × TabClass) :
    Option (Option (List (List Cell))) :=
  (sheetOf env.case (PyDict.keys book) tc.1.toList).bind (fun s =>
    match s with
    | none => some none
    | some n => ((PyDict.get? book n).bind (fun g =>
        (xlColumns env.case o tc.1 tc.2.fields g).bind (fun cols =>
          ((List.range (xlDims o.kind o.prune g).2.1).drop (o.offset tc.1 + if o.headers then 1 else 0)).mapM (fun i =>
            mapCells (xlReadCell env cf dv o tc.1) tc.2.fields (cols.map (fun j => xlFill o.kind (g.at i j))))))).map some)

/-- The primary key cells of the rows of the sheet of a table (xls.py:306-310): `_sub_tuple` is called with
`treat_inf_as_infinity=True`, whatever `create_tic_dat` is called with. -/
def xlKeyRecords (env : XlEnv) (cf : IOConf) (dv : Defaults) (o : XlOpts) (book : Book) (tc : String × TabClass) :
    Option (Option (List (List Cell))) :=
  (sheetOf env.case (PyDict.keys book) tc.1.toList).bind (fun s =>
    match s with
    | none => some none
    | some n => ((PyDict.get? book n).bind (fun g =>
        (xlColumns env.case o tc.1 tc.2.fields g).bind (fun cols =>
          ((List.range (xlDims o.kind o.prune g).2.1).drop (o.offset tc.1 + if o.headers then 1 else 0)).mapM (fun i =>
            mapCells (xlReadCell env cf dv { o with treatInf := true } tc.1) tc.2.pks
              (cols.map (fun j => xlFill o.kind (g.at i j))))))).map some)

/-- `find_duplicates` of an Excel file (xls.py:265-315).  Here `rtn` has an entry for every table with a primary key; the
tables without a sheet have no counts and are deleted by the pruning. -/
def xlDups (env : XlEnv) (cf : IOConf) (dv : Defaults) (o : XlOpts) (schema : List (String × TabClass)) (book : Book) :
    Option (PyDict String (PyDict (PKey Cell) Nat)) :=
  if sheetNamesDiffer (schema.map (fun tc => tc.1.toList)) then
    (collectRecords (fun c => c.pks) (xlKeyRecords env cf dv o book) (keyedOnly schema)).bind (fun recs =>
      csvFindDuplicates (pkFieldsOf schema) (fun _ => true) (fun t => (PyDict.get? recs t).getD []))
  else none

/-! ### SQLite, Access, PostgreSQL -/

/-- `create_duplicate_focused_tdf` (utils.py:738-741): the primary key fields as the data fields of tables without primary
key.  A new factory, so it has no data types, no parameters and the default infinity flag. -/
def dupSchema (schema : List (String × TabClass)) : List (String × TabClass) :=
  (keyedOnly schema).map (fun tc => (tc.1, { pks := [], dfs := tc.2.pks, defaults := [] }))

/-- The settings of a new factory (ticdatfactory.py:922-928). -/
def plainConf : IOConf := { types := [], flag := .na, automunge := true, params := [] }

/-- `getattr(td, t)` of a table without primary key (utils.py:749): its rows. -/
def plainRowsOf (dat : PyDict String TabVal) (t : String) : List (PyDict String Cell) :=
  match PyDict.get? dat t with
  | some (.plain rows) => rows
  | _ => []

/-- `if not self._duplicate_focused_tdf: return {}`, else `find_duplicates` of what its reader makes of the database
(sqlitetd.py:123-127, mdb.py:128-132, pgtd.py:373-378). -/
def dbDups (schema : List (String × TabClass)) (create : List (String × TabClass) → Option (PyDict String TabVal)) :
    Option (PyDict String (PyDict (PKey Cell) Nat)) :=
  if keyedOnly schema = [] then some []
  else (create (dupSchema schema)).bind (fun td => findDuplicates (pkFieldsOf schema) (plainRowsOf td))

/-- `find_duplicates` of a SQLite database (sqlitetd.py:112-127).  The database of the model holds the cells of a row in the
order of the fields of the schema, so the selection of the primary key columns is the beginning of the row. -/
def sqlDups (env : TextEnv) (cenv : CaseEnv) (schema : List (String × TabClass)) (db : SqlDb) :
    Option (PyDict String (PyDict (PKey Cell) Nat)) :=
  dbDups schema (fun s => sqlCreate env cenv plainConf .assert s db)

/-- `find_duplicates` of an Access database (mdb.py:116-132). -/
def mdbDups (env : TextEnv) (cenv : CaseEnv) (schema : List (String × TabClass)) (db : SqlDb) :
    Option (PyDict String (PyDict (PKey Cell) Nat)) :=
  dbDups schema (fun s => mdbCreate env cenv plainConf .assert s db)

/-- `find_duplicates` of a PostgreSQL schema (pgtd.py:354-378). -/
def pgDups (env : TextEnv) (cenv : CaseEnv) (reserved : List (List Char)) (useActive : Bool)
    (schema : List (String × TabClass)) (db : PgDb) : Option (PyDict String (PyDict (PKey Cell) Nat)) :=
  if schema.all (fun tc => pgCompatible cenv reserved tc.1.toList (tc.2.fields.map String.toList)) then
    dbDups schema (fun s => pgCreate env cenv reserved plainConf .assert useActive s db)
  else none

/-! ### json -/

/-- `find_duplicates` of a json file (jsontd.py:107-134, utils.py:759-780), without the pandas branch: the rows under the
exact names of the tables go to a factory that has all fields as data fields, unread. -/
def jsonDups (schema : List (String × TabClass)) (file : PyDict String (List RowIn)) :
    Option (PyDict String (PyDict (PKey Cell) Nat)) :=
  if keyedOnly schema = [] then some []
  else
    let s : List (String × TabClass) :=
      (keyedOnly schema).map (fun tc => (tc.1, { pks := [], dfs := tc.2.fields, defaults := [] }))
    (initDat .assert s ((file.filter (fun p => decide (p.1 ∈ s.map Prod.fst))).map (fun p => (p.1, .seq p.2)))).bind
      (fun td => findDuplicates (pkFieldsOf schema) (plainRowsOf td))

end Ticdat
