import Verif.Model.SqlFile
import Verif.Model.GenFiles
/-!
# Access databases with a schema of their own

Access databases that were not made by `write_schema` have tables with columns of their own.  Access is modelled as in `Mdb` by
what it does to cells (`Store`) and as SQLite in `SqlFile` by what it does to named columns: names of tables and columns are
compared up to case, an INSERT that does not name a column gives it its default value or fails.  Simplifications: names of tables,
which the code does not put in brackets when it writes (mdb.py:313, 316, 325, 330), are no reserved words of Access; rows with the
same primary key are refused, other constraints are part of `Store` or not modelled.
-/
namespace Ticdat

/-! ### Reading -/

/-- The rows of a table as `_create_tic_dat` reads them (mdb.py:193-206). -/
def mdbTabRows (env : TextEnv) (cenv : CaseEnv) (cf : IOConf) (file : SqlFile) (tc : String × TabClass) (n : String) :
    Option TableIn :=
  (file.find cenv n).bind (fun tab => (tab.select cenv tc.2.fields).bind (fun rows =>
    (rows.mapM (mapCells (readCell env cf tc.1) tc.2.fields)).map (readerTable tc.2)))

/-- `create_tic_dat` (mdb.py:96-114, 184-209).  `_check_tables_fields` (mdb.py:152-171) is that of SQLite, except that it finds the
names of all tables before it looks at fields. -/
def mdbFileCreate (env : TextEnv) (cenv : CaseEnv) (cf : IOConf) (policy : DupPolicy) (schema : List (String × TabClass))
    (file : SqlFile) : Option (PyDict String TabVal) :=
  (file.checkFields cenv schema).bind (fun names =>
    ((gatherTables (fun tc =>
      match PyDict.get? names tc.1 with
      | none => some none
      | some n => (mdbTabRows env cenv cf file tc n).map some) schema).bind (initDat policy schema)).map (postRead env cf.params))

/-- `list(dat.t())` for a generator table (mdb.py:173-183): the name of the table was fixed when the object was made, the file is
opened each time; a table that was missing was left out (mdb.py:207-208) and is empty. -/
def mdbLazyRows (env : TextEnv) (cenv : CaseEnv) (cf : IOConf) (file : SqlFile) (tc : String × TabClass) :
    Option String → Option (List RowVal)
  | none => some []
  | some n => lazyRows tc.2 (mdbTabRows env cenv cf file tc n)

/-- The function of a generator table (mdb.py:152-183, 207-208). -/
def mdbProbe (env : TextEnv) (cenv : CaseEnv) (cf : IOConf) (file : SqlFile) (tc : String × TabClass) : Option (Option String) :=
  (file.tableName cenv tc.1).bind (fun name =>
    match name with
    | none => some none
    | some n => (mdbTabRows env cenv cf file tc n).bind (fun x => if lazyGood tc.2 x then some (some n) else none))

/-- `create_tic_dat` with generator tables (mdb.py:96-114, 184-209). -/
def mdbLazyCreate (env : TextEnv) (cenv : CaseEnv) (cf : IOConf) (policy : DupPolicy) (gens : List String)
    (schema : List (String × TabClass)) (file : SqlFile) : Option (LazyObj (Option String)) :=
  lazyCreate (fun s => mdbFileCreate env cenv cf policy s file) (mdbProbe env cenv cf file) gens schema

/-! ### Writing -/

/-- A connection: what its own statements see, and what has been committed. -/
structure MdbConn where
  live : SqlFile
  saved : SqlFile

/-- The row an INSERT makes. -/
def SqlTab.mdbRow (cenv : CaseEnv) (store : Store) (t : String) (tab : SqlTab) (fields : List String) (cells : List Cell) :
    Option (List Cell) :=
  tab.cols.mapM (fun c =>
    match (fields.zip cells).find? (fun p => decide (cenv.lower p.1.toList = cenv.lower c.name.toList)) with
    | some p => store t p.1 p.2
    | none => c.dflt)

/-- An INSERT into a table; rows with the same primary key are refused. -/
def SqlTab.mdbInsert (cenv : CaseEnv) (store : Store) (t : String) (fields : List String) (cells : List Cell) (tab : SqlTab) :
    Option SqlTab :=
  (tab.mdbRow cenv store t fields cells).bind (fun row =>
    if tab.key ≠ [] ∧ tab.rows.any (fun r => decide (tab.keyOf cenv r = tab.keyOf cenv row)) then none
    else some { tab with rows := tab.rows ++ [row] })

/-- One row of `write_file` (mdb.py:319-327, 329-334): rows of tables with primary key are committed one by one. -/
def mdbFileRow (env : TextEnv) (cenv : CaseEnv) (cf : IOConf) (store : Store) (keyed : Bool) (tc : String × TabClass)
    (row : List Cell) (s : MdbConn) : Option MdbConn :=
  (mapCells (mdbWriteCell env cf keyed tc.1) tc.2.fields row).bind (fun ws =>
    (s.live.update cenv tc.1 (SqlTab.mdbInsert cenv store tc.1 tc.2.fields ws)).map (fun live =>
      if keyed then ⟨live, live⟩ else ⟨live, s.saved⟩))

/-- `Delete from t` with its commit, if `allow_overwrite` (mdb.py:316). -/
def mdbFileEmpty (cenv : CaseEnv) (allowOverwrite : Bool) (t : String) (s : MdbConn) : Option MdbConn :=
  if allowOverwrite then (s.live.update cenv t (fun tab => some { tab with rows := [] })).map (fun live => ⟨live, live⟩)
  else some s

/-- One table of `write_file` (mdb.py:306-334). -/
def mdbFileTable (env : TextEnv) (cenv : CaseEnv) (cf : IOConf) (store : Store) (allowOverwrite : Bool)
    (names : PyDict String String) (dat : PyDict String TabVal) (tc : String × TabClass) (s : MdbConn) : MdbConn × Bool :=
  if PyDict.get? names tc.1 ≠ some tc.1 then (s, true)
  else if allowOverwrite = false ∧ (s.live.find cenv tc.1).map SqlTab.rows ≠ some [] then (s, true)
  else
    match mdbFileEmpty cenv allowOverwrite tc.1 s with
    | none => (s, true)
    | some s =>
      match (PyDict.get? dat tc.1).bind (fun tab => (flatRows tc.2 tab).map (fun rows => (tab.isKeyed, rows))) with
      | none => (s, true)
      | some (keyed, rows) => runSteps (mdbFileRow env cenv cf store keyed tc) rows s

/-- The loop over the tables (mdb.py:306). -/
def mdbFileTables (env : TextEnv) (cenv : CaseEnv) (cf : IOConf) (store : Store) (allowOverwrite : Bool)
    (names : PyDict String String) (dat : PyDict String TabVal) : List (String × TabClass) → MdbConn → MdbConn × Bool
  | [], s => (s, false)
  | tc :: rest, s =>
    match mdbFileTable env cenv cf store allowOverwrite names dat tc s with
    | (s', true) => (s', true)
    | (s', false) => mdbFileTables env cenv cf store allowOverwrite names dat rest s'

/-- `write_file` (mdb.py:276-334) on an existing file: the file afterwards, and whether an exception was raised.  The check
`good_tic_dat_object` is not modelled here (`dat` has the right shape in the theorems). -/
def mdbFileWrite (env : TextEnv) (cenv : CaseEnv) (cf : IOConf) (store : Store) (allowOverwrite : Bool)
    (schema : List (String × TabClass)) (dat : PyDict String TabVal) (file : SqlFile) : SqlFile × Bool :=
  match file.checkFields cenv schema with
  | none => (file, true)
  | some names =>
    match mdbFileTables env cenv cf store allowOverwrite names dat schema ⟨file, file⟩ with
    | (s, true) => (s.saved, true)
    | (s, false) => (s.live, false)

end Ticdat
