import Verif.Model.TableIO
import Verif.Model.SqlText
import Verif.Model.Utils
/-!
# SQLite databases and .sql files

SQLite is modelled by what it does to cells: it stores numbers and text as they are, NaN as NULL, Booleans as 0 and 1,
datetimes as text, and it turns text that is a number into a number in columns declared INT or FLOAT.  Database files are
taken to have been created by `write_db_schema` for the same schema: each table has the fields of the schema in order.
Names of tables are compared up to case.
-/
namespace Ticdat

/-- The part of SQLite that is not spelled out: which texts its numeric affinity turns into numbers. -/
structure SqlEnv where
  num : String → Option XNum

/-- Is the column declared INT or FLOAT (sqlitetd.py:255-263); key columns have no type. -/
def sqlAffinity (cf : IOConf) (dv : Defaults) (t f : String) : Bool :=
  if t = "parameters" ∧ cf.params ≠ [] then false
  else ((dv t f).map Cell.numericish).getD false

/-- Text stored in a column. -/
def sqlStoreText (senv : SqlEnv) (aff : Bool) (s : String) : Cell :=
  if aff then
    match senv.num s with
    | some x => .num x
    | none => .str s
  else .str s

/-- What SQLite reads for a text that `_insert_format` has put into a .sql file (sqlitetd.py:18-41, 143-145): text with a
semicolon is cut there, which is an error. -/
def sqlFileText (s : String) : Option String :=
  if s.toList.contains ';' then none
  else
    match readVal (insertFormat (.text s.toList) ++ [')']) with
    | some (.text x, [')']) => some (String.ofList x)
    | _ => none

/-- What is stored for a value of an INSERT: bound as a parameter (sqlitetd.py:356), or written into a .sql file by
`_insert_format` (sqlitetd.py:33-41) and executed.  `none` is a raised exception (`nan` in a statement is no column).
Simplification: datetimes are `datetime.datetime` (the sqlite3 module adapts no subclass), numbers fit. -/
def sqlStore (env : TextEnv) (senv : SqlEnv) (asSql aff : Bool) : Cell → Option Cell
  | .none => some .none
  | .nan => if asSql then none else some .none
  | .num .pinf => some (if asSql then .str "inf" else .num .pinf)
  | .num .ninf => some (if asSql then .str "-inf" else .num .ninf)
  | .num (.fin q) => some (.num (.fin q))
  | .bool b => some (.num (.fin (if b then 1 else 0)))
  | .str s => (if asSql then sqlFileText s else some s).map (sqlStoreText senv aff)
  | .dt d => some (sqlStoreText senv aff (env.text (.dt d)))
  | .other _ => none

/-- `_write_data_cell` (sqlitetd.py:278-281). -/
def sqlWriteCell (env : TextEnv) (cf : IOConf) (t f : String) : Cell → Option Cell
  | .bool b => some (.str (if b then "True" else "False"))
  | x => writeCell env cf t f x

/-- `_read_data_cell` (sqlitetd.py:187-195). -/
def sqlReadCell (env : TextEnv) (cenv : CaseEnv) (cf : IOConf) (t f : String) : Cell → Option Cell
  | .str s =>
    let l := cenv.lower s.toList
    if (l = "inf".toList ∨ l = "-inf".toList) ∧ cf.flag = .na ∧ ¬ (t = "parameters" ∧ cf.params ≠ []) then
      some (.num (if l = "inf".toList then .pinf else .ninf))
    else if l = "true".toList then some (.bool true)
    else if l = "false".toList then some (.bool false)
    else readCell env cf t f (.str s)
  | x => readCell env cf t f x

/-- The values of one INSERT of `_get_data` (sqlitetd.py:282-310): rows of tables without primary key are written as they
are, without `_write_data_cell`. -/
def sqlCell (env : TextEnv) (senv : SqlEnv) (cf : IOConf) (dv : Defaults) (asSql keyed : Bool) (t f : String) (x : Cell) :
    Option Cell :=
  (if keyed then sqlWriteCell env cf t f x else some x).bind (sqlStore env senv asSql (sqlAffinity cf dv t f))

/-- `PRIMARY KEY` (sqlitetd.py:273-274): rows that agree in all key columns are refused, except that NULL is different
from NULL. -/
def sqlKeysUnique (n : Nat) (rows : List (List Cell)) : Bool :=
  decide (((rows.map (List.take n)).filter (fun k => !k.contains .none)).Nodup)

/-- `dictish(t)` (sqlitetd.py:286): is it a table with primary key. -/
def TabVal.isKeyed : TabVal → Bool
  | .keyed _ => true
  | .plain _ => false

/-- The rows in the database after the INSERTs for one table into the empty table. -/
def sqlRows (env : TextEnv) (senv : SqlEnv) (cf : IOConf) (dv : Defaults) (asSql : Bool) (t : String) (c : TabClass)
    (tab : TabVal) : Option (List (List Cell)) :=
  ((flatRows c tab).bind (fun rows =>
    rows.mapM (mapCells (sqlCell env senv cf dv asSql tab.isKeyed t) c.fields))).bind (fun rows =>
        if c.pks ≠ [] && !sqlKeysUnique c.pks.length rows then none else some rows)

/-- A database: rows of cells by table. -/
abbrev SqlDb := PyDict String (List (List Cell))

/-- The names under which a table might be in the database (sqlitetd.py:149-166): those of its variants with blanks for
underscores that name a table. -/
def sqlTableName (cenv : CaseEnv) (db : SqlDb) (t : String) : Option (Option String) :=
  match (underscoreReplacements t.toList).filter (fun n =>
      db.any (fun p => decide (cenv.lower p.1.toList = cenv.lower n))) with
  | [] => some none
  | [n] => some (some (String.ofList n))
  | _ => none

/-- `Select ... from [name]`. -/
def sqlSelect (cenv : CaseEnv) (db : SqlDb) (name : String) : Option (List (List Cell)) :=
  (db.find? (fun p => decide (cenv.lower p.1.toList = cenv.lower name.toList))).map Prod.snd

/-- `write_db_schema` (sqlitetd.py:311-323): SQLite refuses two columns that agree up to case. -/
def sqlNewDb (cenv : CaseEnv) (schema : List (String × TabClass)) : Option SqlDb :=
  if schema.all (fun tc => decide ((tc.2.fields.map (fun f => cenv.lower f.toList)).Nodup)) then
    some (schema.map (fun tc => (tc.1, [])))
  else none

/-- A missing file is created with the schema (sqlitetd.py:345-346). -/
def sqlOpen (cenv : CaseEnv) (schema : List (String × TabClass)) : Option SqlDb → Option SqlDb
  | none => sqlNewDb cenv schema
  | some db => some db

/-- `write_db_data` (sqlitetd.py:323-356), `db` is `none` if the file does not exist.  The foreign key constraints are off.
-/
def sqlWriteDb (env : TextEnv) (senv : SqlEnv) (cenv : CaseEnv) (cf : IOConf) (dv : Defaults) (allowOverwrite : Bool)
    (schema : List (String × TabClass)) (dat : PyDict String TabVal) (db : Option SqlDb) : Option SqlDb :=
  (sqlOpen cenv schema db).bind (fun db =>
    if schema.all (fun tc => decide (sqlTableName cenv db tc.1 = some (some tc.1)) &&
        (allowOverwrite || decide (sqlSelect cenv db tc.1 = some []))) then
      writeAll (fun tc => tc.1) (fun tc => (PyDict.get? dat tc.1).bind (sqlRows env senv cf dv false tc.1 tc.2)) schema db
    else none)

/-- `write_sql_file` and `create_tic_dat_from_sql` up to the point where the statements have been executed
(sqlitetd.py:358-390, 134-147). -/
def sqlRunFile (env : TextEnv) (senv : SqlEnv) (cenv : CaseEnv) (cf : IOConf) (dv : Defaults)
    (schema : List (String × TabClass)) (dat : PyDict String TabVal) : Option SqlDb :=
  (sqlNewDb cenv schema).bind (fun db =>
    writeAll (fun tc => tc.1) (fun tc => (PyDict.get? dat tc.1).bind (sqlRows env senv cf dv true tc.1 tc.2)) schema db)

/-- One table of `_create_tic_dat_from_con` (sqlitetd.py:214-239). -/
def sqlFind (env : TextEnv) (cenv : CaseEnv) (cf : IOConf) (db : SqlDb) (tc : String × TabClass) :
    Option (Option TableIn) :=
  (sqlTableName cenv db tc.1).bind (fun name =>
    match name with
    | none => some none
    | some n => (sqlSelect cenv db n).bind (fun rows =>
        (rows.mapM (mapCells (sqlReadCell env cenv cf tc.1) tc.2.fields)).map (fun rows => some (readerTable tc.2 rows))))

/-- `create_tic_dat` (sqlitetd.py:70-95, 205-239). -/
def sqlCreate (env : TextEnv) (cenv : CaseEnv) (cf : IOConf) (policy : DupPolicy) (schema : List (String × TabClass))
    (db : SqlDb) : Option (PyDict String TabVal) :=
  ((gatherTables (sqlFind env cenv cf db) schema).bind (initDat policy schema)).map (postRead env cf.params)

end Ticdat
