import Verif.Model.SqliteIO
/-!
# Access files

Access is modelled by what it does to cells: a column stores a value handed to it as some cell, or refuses it (wrong type,
NULL in a primary key); which, is a parameter of the model.  Files are taken to have been created by `write_schema` for the
same schema: each table has the fields of the schema.  Names of tables are compared up to case; a table whose name agrees
with that of a table of the schema up to case is taken to have that very name.  Generator tables are not
modelled, generic tables are refused by the code.
-/
namespace Ticdat

/-- What a column of a database stores for a value bound to an INSERT, by table and field; `none` is an error. -/
abbrev Store := String → String → Cell → Option Cell

/-- An INSERT of a row into a table whose first `n` columns are the primary key (none if `n` is 0); `none` is an error. -/
def dbInsert (n : Nat) (rows : List (List Cell)) (r : List Cell) : Option (List (List Cell)) :=
  if n ≠ 0 ∧ rows.any (fun r' => decide (r'.take n = r.take n)) then none else some (rows ++ [r])

/-- `_brackets` (mdb.py:68-69) on one name. -/
def brackets (f : String) : String := "[" ++ f ++ "]"

/-- `write_data` of `write_file` (mdb.py:307-308): for tables with primary key it is called with the bracketed names of the
fields (mdb.py:321-324), for others with the names (mdb.py:333). -/
def mdbWriteCell (env : TextEnv) (cf : IOConf) (keyed : Bool) (t f : String) (x : Cell) : Option Cell :=
  writeCell env cf t (if keyed then brackets f else f) x

/-- What becomes of a cell that is written. -/
def mdbCell (env : TextEnv) (cf : IOConf) (store : Store) (keyed : Bool) (t f : String) (x : Cell) : Option Cell :=
  (mdbWriteCell env cf keyed t f x).bind (store t f)

/-- A connection: what its own statements see, and what has been committed. -/
structure MdbState where
  live : SqlDb
  saved : SqlDb

/-- `cursor.commit()`. -/
def MdbState.commit (s : MdbState) : MdbState := { s with saved := s.live }

/-- One row of `write_file` (mdb.py:319-327, 329-334): rows of tables with primary key are committed one by one. -/
def mdbInsertRow (env : TextEnv) (cf : IOConf) (store : Store) (keyed : Bool) (tc : String × TabClass) (row : List Cell)
    (s : MdbState) : Option MdbState :=
  (mapCells (mdbCell env cf store keyed tc.1) tc.2.fields row).bind (fun ws =>
    (PyDict.get? s.live tc.1).bind (fun rows =>
      (dbInsert tc.2.pks.length rows ws).map (fun rows' =>
        let s' : MdbState := { s with live := PyDict.set s.live tc.1 rows' }
        if keyed then s'.commit else s')))

/-- Steps until one raises: the last state, and whether one has raised. -/
def runSteps {A S : Type} (step : A → S → Option S) : List A → S → S × Bool
  | [], s => (s, false)
  | a :: rest, s =>
    match step a s with
    | none => (s, true)
    | some s' => runSteps step rest s'

/-- One table of `write_file` (mdb.py:306-334). -/
def mdbWriteTable (env : TextEnv) (cf : IOConf) (store : Store) (allowOverwrite : Bool) (names : PyDict String String)
    (dat : PyDict String TabVal) (tc : String × TabClass) (s : MdbState) : MdbState × Bool :=
  if PyDict.get? names tc.1 ≠ some tc.1 then (s, true)
  else if allowOverwrite = false ∧ PyDict.get? s.live tc.1 ≠ some [] then (s, true)
  else
    let s := if allowOverwrite then MdbState.commit { s with live := PyDict.set s.live tc.1 [] } else s
    match (PyDict.get? dat tc.1).bind (fun tab => (flatRows tc.2 tab).map (fun rows => (tab.isKeyed, rows))) with
    | none => (s, true)
    | some (keyed, rows) => runSteps (mdbInsertRow env cf store keyed tc) rows s

/-- The loop over the tables (mdb.py:306). -/
def mdbWriteTables (env : TextEnv) (cf : IOConf) (store : Store) (allowOverwrite : Bool) (names : PyDict String String)
    (dat : PyDict String TabVal) : List (String × TabClass) → MdbState → MdbState × Bool
  | [], s => (s, false)
  | tc :: rest, s =>
    match mdbWriteTable env cf store allowOverwrite names dat tc s with
    | (s', true) => (s', true)
    | (s', false) => mdbWriteTables env cf store allowOverwrite names dat rest s'

/-- `_get_table_names` (mdb.py:133-151): the tables that were found, with their names; `none` is the raised error. -/
def mdbNames (cenv : CaseEnv) (db : SqlDb) : List (String × TabClass) → Option (PyDict String String)
  | [] => some []
  | tc :: rest => (sqlTableName cenv db tc.1).bind (fun n => (mdbNames cenv db rest).map (fun r =>
      match n with
      | none => r
      | some n => (tc.1, n) :: r))

/-- `write_file` (mdb.py:276-334) on an existing file: the file afterwards, and whether an exception was raised.  The
connection commits when it is left without an exception, and what is not committed is lost otherwise.  The check
`good_tic_dat_object` is not modelled here (`dat` has the right shape in the theorems). -/
def mdbWrite (env : TextEnv) (cenv : CaseEnv) (cf : IOConf) (store : Store) (allowOverwrite : Bool)
    (schema : List (String × TabClass)) (dat : PyDict String TabVal) (db : SqlDb) : SqlDb × Bool :=
  match mdbNames cenv db schema with
  | none => (db, true)
  | some names =>
    match mdbWriteTables env cf store allowOverwrite names dat schema ⟨db, db⟩ with
    | (s, true) => (s.saved, true)
    | (s, false) => (s.live, false)

/-- `write_file` (mdb.py:302-303) on a file that may not exist: it is created by `write_schema` (mdb.py:217-275), which like
SQLite refuses fields that agree up to case. -/
def mdbWriteFile (env : TextEnv) (cenv : CaseEnv) (cf : IOConf) (store : Store) (allowOverwrite : Bool)
    (schema : List (String × TabClass)) (dat : PyDict String TabVal) (file : Option SqlDb) : Option (SqlDb × Bool) :=
  (sqlOpen cenv schema file).map (mdbWrite env cenv cf store allowOverwrite schema dat)

/-- One table of `_create_tic_dat` (mdb.py:192-206). -/
def mdbFind (env : TextEnv) (cenv : CaseEnv) (cf : IOConf) (db : SqlDb) (names : PyDict String String)
    (tc : String × TabClass) : Option (Option TableIn) :=
  match PyDict.get? names tc.1 with
  | none => some none
  | some n => (sqlSelect cenv db n).bind (fun rows =>
      (rows.mapM (mapCells (readCell env cf tc.1) tc.2.fields)).map (fun rows => some (readerTable tc.2 rows)))

/-- `create_tic_dat` (mdb.py:96-114, 184-209). -/
def mdbCreate (env : TextEnv) (cenv : CaseEnv) (cf : IOConf) (policy : DupPolicy) (schema : List (String × TabClass))
    (db : SqlDb) : Option (PyDict String TabVal) :=
  (mdbNames cenv db schema).bind (fun names =>
    ((gatherTables (mdbFind env cenv cf db names) schema).bind (initDat policy schema)).map (postRead env cf.params))

end Ticdat
