import Verif.Model.Mdb
/-!
# SQLite databases with a schema of their own

A database that was not made by `write_db_schema` has tables with columns of its own: others than those of the schema, in
another order, spelled in another case.  SQLite is modelled by what it does to named columns: names of tables and columns
are compared up to case, an INSERT that does not name a column gives it its default value or fails, and rows with the same
primary key are refused.  Other constraints of such a database are not modelled; foreign keys are switched off by the code.
A connection used as context manager commits if its block ends and takes everything back if the block raises.
-/
namespace Ticdat

/-- A column: its name, whether it turns text that is a number into a number (numeric affinity), and what a row gets that
is inserted without naming it; `none` for a column that may not be left out. -/
structure SqlCol where
  name : String
  aff : Bool
  dflt : Option Cell

/-- A table: its columns, the names of its primary key columns, and its rows. -/
structure SqlTab where
  cols : List SqlCol
  key : List String
  rows : List (List Cell)

/-- A database. -/
abbrev SqlFile := PyDict String SqlTab

/-- The position of the column with this name. -/
def SqlTab.col (cenv : CaseEnv) (tab : SqlTab) (f : String) : Option Nat :=
  tab.cols.findIdx? (fun c => decide (cenv.lower c.name.toList = cenv.lower f.toList))

/-- The cells of a row in these columns. -/
def pick (ixs : List Nat) (row : List Cell) : List Cell := ixs.map (fun i => (row[i]?).getD .none)

/-- `Select [f1], [f2] from [table]`; an unknown column is an error. -/
def SqlTab.select (cenv : CaseEnv) (tab : SqlTab) (fields : List String) : Option (List (List Cell)) :=
  (fields.mapM (tab.col cenv)).map (fun ixs => tab.rows.map (pick ixs))

/-- The table with this name. -/
def SqlFile.find (cenv : CaseEnv) (file : SqlFile) (n : String) : Option SqlTab :=
  (List.find? (fun p : String × SqlTab => decide (cenv.lower p.1.toList = cenv.lower n.toList)) file).map Prod.snd

/-- A statement that changes the table with this name; `none` is an error. -/
def SqlFile.update (cenv : CaseEnv) (n : String) (g : SqlTab → Option SqlTab) : SqlFile → Option SqlFile
  | [] => none
  | p :: rest =>
    if cenv.lower p.1.toList = cenv.lower n.toList then (g p.2).map (fun x => (p.1, x) :: rest)
    else (SqlFile.update cenv n g rest).map (fun r => p :: r)

/-- The name under which a table is in the database (sqlitetd.py:149-166). -/
def SqlFile.tableName (cenv : CaseEnv) (file : SqlFile) (t : String) : Option (Option String) :=
  sqlTableName cenv (file.map (fun p => (p.1, []))) t

/-- `_check_tables_fields` (sqlitetd.py:167-186): the tables that were found, with their names; `none` is a raised error. -/
def SqlFile.checkFields (cenv : CaseEnv) (file : SqlFile) : List (String × TabClass) → Option (PyDict String String)
  | [] => some []
  | tc :: rest => (file.tableName cenv tc.1).bind (fun n => (file.checkFields cenv rest).bind (fun r =>
      match n with
      | none => some r
      | some n => (file.find cenv n).bind (fun tab => (tc.2.fields.mapM (tab.col cenv)).map (fun _ => (tc.1, n) :: r))))

/-! ### Reading -/

/-- The rows of a table as `_create_tic_dat_from_con` reads them (sqlitetd.py:230-238). -/
def sqlTabRows (env : TextEnv) (cenv : CaseEnv) (cf : IOConf) (file : SqlFile) (tc : String × TabClass) (n : String) :
    Option TableIn :=
  (file.find cenv n).bind (fun tab => (tab.select cenv tc.2.fields).bind (fun rows =>
    (rows.mapM (mapCells (sqlReadCell env cenv cf tc.1) tc.2.fields)).map (readerTable tc.2)))

/-- `_create_tic_dat_from_con` (sqlitetd.py:214-239) with the `TicDat` constructor (sqlitetd.py:70-78), given the names of the
tables. -/
def sqlFromCon (env : TextEnv) (cenv : CaseEnv) (cf : IOConf) (policy : DupPolicy) (schema : List (String × TabClass))
    (names : PyDict String String) (file : SqlFile) : Option (PyDict String TabVal) :=
  ((gatherTables (fun tc =>
    match PyDict.get? names tc.1 with
    | none => some none
    | some n => (sqlTabRows env cenv cf file tc n).map some) schema).bind (initDat policy schema)).map (postRead env cf.params)

/-- `create_tic_dat` (sqlitetd.py:79-95, 205-213). -/
def sqlFileCreate (env : TextEnv) (cenv : CaseEnv) (cf : IOConf) (policy : DupPolicy) (schema : List (String × TabClass))
    (file : SqlFile) : Option (PyDict String TabVal) :=
  (file.checkFields cenv schema).bind (fun names => sqlFromCon env cenv cf policy schema names file)

/-- `create_tic_dat_from_sql` (sqlitetd.py:96-111, 134-148) once the statements of the file have been executed: every table
is looked for under its own name only. -/
def sqlTextCreate (env : TextEnv) (cenv : CaseEnv) (cf : IOConf) (policy : DupPolicy) (schema : List (String × TabClass))
    (file : SqlFile) : Option (PyDict String TabVal) :=
  sqlFromCon env cenv cf policy schema (schema.map (fun tc => (tc.1, tc.1))) file

/-! ### Writing -/

/-- A statement of `_get_data` (sqlitetd.py:282-310): table, fields and the values bound. -/
structure SqlInsert where
  table : String
  fields : List String
  cells : List Cell

/-- The cells of a row as they are bound (sqlitetd.py:288-293, 301-303). -/
def sqlBind (env : TextEnv) (cf : IOConf) (keyed : Bool) (t f : String) (x : Cell) : Option Cell :=
  if keyed then sqlWriteCell env cf t f x else some x

/-- The statements for one table. -/
def sqlTabData (env : TextEnv) (cf : IOConf) (dat : PyDict String TabVal) (tc : String × TabClass) : Option (List SqlInsert) :=
  (PyDict.get? dat tc.1).bind (fun tab => (flatRows tc.2 tab).bind (fun rows =>
    (rows.mapM (mapCells (sqlBind env cf tab.isKeyed tc.1) tc.2.fields)).map (fun rows =>
      rows.map (fun r => ⟨tc.1, tc.2.fields, r⟩))))

/-- `_get_data` (sqlitetd.py:282-310). -/
def sqlData (env : TextEnv) (cf : IOConf) (dat : PyDict String TabVal) (schema : List (String × TabClass)) :
    Option (List SqlInsert) :=
  (schema.mapM (sqlTabData env cf dat)).map List.flatten

/-- The row an INSERT makes. -/
def SqlTab.newRow (env : TextEnv) (senv : SqlEnv) (cenv : CaseEnv) (tab : SqlTab) (fields : List String) (cells : List Cell) :
    Option (List Cell) :=
  tab.cols.mapM (fun c =>
    match (fields.zip cells).find? (fun p => decide (cenv.lower p.1.toList = cenv.lower c.name.toList)) with
    | some p => sqlStore env senv false c.aff p.2
    | none => c.dflt)

/-- The cells of the primary key of a row. -/
def SqlTab.keyOf (cenv : CaseEnv) (tab : SqlTab) (row : List Cell) : List Cell :=
  pick ((tab.key.mapM (tab.col cenv)).getD []) row

/-- An INSERT into a table; rows with the same primary key are refused, except that NULL is different from NULL. -/
def SqlTab.insert (env : TextEnv) (senv : SqlEnv) (cenv : CaseEnv) (fields : List String) (cells : List Cell) (tab : SqlTab) :
    Option SqlTab :=
  (tab.newRow env senv cenv fields cells).bind (fun row =>
    if tab.key ≠ [] ∧ !(tab.keyOf cenv row).contains .none ∧
        tab.rows.any (fun r => decide (tab.keyOf cenv r = tab.keyOf cenv row)) then none
    else some { tab with rows := tab.rows ++ [row] })

/-- `con.execute(sql_str, list(data))` (sqlitetd.py:355-356). -/
def sqlExecute (env : TextEnv) (senv : SqlEnv) (cenv : CaseEnv) (s : SqlInsert) (file : SqlFile) : Option SqlFile :=
  file.update cenv s.table (SqlTab.insert env senv cenv s.fields s.cells)

/-- The loop that checks and empties the tables (sqlitetd.py:348-354). -/
def sqlPrepare (cenv : CaseEnv) (allowOverwrite : Bool) (names : PyDict String String) (tc : String × TabClass) (file : SqlFile) :
    Option SqlFile :=
  if PyDict.get? names tc.1 ≠ some tc.1 then none
  else (file.find cenv tc.1).bind (fun tab =>
    if allowOverwrite then file.update cenv tc.1 (fun tab => some { tab with rows := [] })
    else if tab.rows = [] then some file else none)

/-- `write_db_data` (sqlitetd.py:323-356) on an existing database: the database afterwards, and whether an exception was
raised.  The check `good_tic_dat_object` is not modelled here (`dat` has the right shape in the theorems). -/
def sqlFileWrite (env : TextEnv) (senv : SqlEnv) (cenv : CaseEnv) (cf : IOConf) (allowOverwrite : Bool)
    (schema : List (String × TabClass)) (dat : PyDict String TabVal) (file : SqlFile) : SqlFile × Bool :=
  match file.checkFields cenv schema with
  | none => (file, true)
  | some names =>
    match runSteps (sqlPrepare cenv allowOverwrite names) schema file with
    | (_, true) => (file, true)
    | (file1, false) =>
      match sqlData env cf dat schema with
      | none => (file, true)
      | some stmts =>
        match runSteps (sqlExecute env senv cenv) stmts file1 with
        | (_, true) => (file, true)
        | (file2, false) => (file2, false)

/-- The tables `write_db_schema` makes (sqlitetd.py:250-277, 311-322). -/
def sqlSchemaFile (cf : IOConf) (dv : Defaults) (schema : List (String × TabClass)) : SqlFile :=
  schema.map (fun tc => (tc.1, ⟨tc.2.pks.map (fun f => ⟨f, false, some .none⟩) ++
    tc.2.dfs.map (fun f => ⟨f, sqlAffinity cf dv tc.1 f, dv tc.1 f⟩), tc.2.pks, []⟩))

end Ticdat
