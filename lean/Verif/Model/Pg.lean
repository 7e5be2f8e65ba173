import Verif.Model.Mdb
/-!
# PostgreSQL schemas written and read by `PostgresTicFactory`

The database is modelled by its tables and rows; what a column stores for a value, and which states of the database its
constraints other than primary keys (foreign keys) allow, are parameters of the model.  `engine` is a connection: statements are
seen at once and lost on an exception unless committed.  The bulk variant with `dsn` inserts the same rows in the same
order.  Each table has the fields of the schema under their postgres names, and perhaps a Boolean column that the caller
names by `active_fld`.
-/
namespace Ticdat

/-- A table: does it have the active column, and its rows with the value of that column (`is True`). -/
structure PgTable where
  active : Bool
  rows : List (Bool × List Cell)
deriving DecidableEq, Repr

abbrev PgDb := PyDict String PgTable

/-- `_write_data_cell` (pgtd.py:285-289): the value is that of `_infinity_flag_write_cell`; numbers are handed over as
`int` or `float`, which the model does not tell apart. -/
def pgCell (env : TextEnv) (cf : IOConf) (store : Store) (t f : String) (x : Cell) : Option Cell :=
  (writeCell env cf t f x).bind (store t f)

/-- One statement of `_handle_prexisting_rows` (pgtd.py:243-251): `check` are the constraints of the database. -/
def pgDelete (check : PgDb → Bool) (del : String → Bool) (t : String) (db : PgDb) : Option PgDb :=
  if del t then
    (PyDict.get? db t).bind (fun tab =>
      let db' := PyDict.set db t { tab with rows := [] }
      if check db' then some db' else none)
  else some db

/-- One INSERT (pgtd.py:387-410, 455-459): `useActive` is "an `active_fld` is given"; without, the active column gets its
default value `dflt`. -/
def pgInsert (env : TextEnv) (cf : IOConf) (store : Store) (check : PgDb → Bool) (useActive dflt : Bool)
    (tr : (String × TabClass) × List Cell) (db : PgDb) : Option PgDb :=
  (mapCells (pgCell env cf store tr.1.1) tr.1.2.fields tr.2).bind (fun ws =>
    (PyDict.get? db tr.1.1).bind (fun tab =>
      (dbInsert tr.1.2.pks.length (tab.rows.map Prod.snd) ws).bind (fun _ =>
        let db' := PyDict.set db tr.1.1 { tab with rows := tab.rows ++ [(if useActive && tab.active then true else dflt, ws)] }
        if check db' then some db' else none)))

/-- The rows of `_get_data` (pgtd.py:381-410): tables in the given order. -/
def pgData (schema : List (String × TabClass)) (dat : PyDict String TabVal) :
    List String → Option (List ((String × TabClass) × List Cell))
  | [] => some []
  | t :: rest => (PyDict.get? schema t).bind (fun c => (PyDict.get? dat t).bind (fun tab =>
      (flatRows c tab).bind (fun rows => (pgData schema dat rest).map (fun r => rows.map (fun row => ((t, c), row)) ++ r))))

/-- `write_data` (pgtd.py:412-463): the database afterwards, and whether an exception was raised.  `order` is the result
of `_ordered_tables`.  Each deletion is committed, the insertions are committed together at the end. -/
def pgWrite (env : TextEnv) (cenv : CaseEnv) (reserved : List (List Char)) (cf : IOConf) (store : Store)
    (check : PgDb → Bool) (useActive dflt : Bool) (del : String → Bool) (order : List String)
    (schema : List (String × TabClass)) (dat : PyDict String TabVal) (db : PgDb) : PgDb × Bool :=
  if schema.all (fun tc => pgCompatible cenv reserved tc.1.toList (tc.2.fields.map String.toList) &&
      PyDict.has db tc.1) then
    match runSteps (pgDelete check del) order.reverse db with
    | (db', true) => (db', true)
    | (db', false) =>
      match pgData schema dat order with
      | none => (db', true)
      | some data =>
        match runSteps (pgInsert env cf store check useActive dflt) data db' with
        | (_, true) => (db', true)
        | (db'', false) => (db'', false)
  else (db, true)

/-- One table of `_create_tic_dat_from_con` (pgtd.py:331-352). -/
def pgFind (env : TextEnv) (cf : IOConf) (useActive : Bool) (db : PgDb) (tc : String × TabClass) :
    Option (Option TableIn) :=
  match PyDict.get? db tc.1 with
  | none => some none
  | some tab =>
    let rows := (tab.rows.filter (fun r => !(useActive && tab.active) || r.1)).map Prod.snd
    (rows.mapM (mapCells (readCell env cf tc.1) tc.2.fields)).map (fun rows => some (readerTable tc.2 rows))

/-- `create_tic_dat` (pgtd.py:291-329). -/
def pgCreate (env : TextEnv) (cenv : CaseEnv) (reserved : List (List Char)) (cf : IOConf) (policy : DupPolicy)
    (useActive : Bool) (schema : List (String × TabClass)) (db : PgDb) : Option (PyDict String TabVal) :=
  if schema.all (fun tc => pgCompatible cenv reserved tc.1.toList (tc.2.fields.map String.toList)) then
    ((gatherTables (pgFind env cf useActive db) schema).bind (initDat policy schema)).map (postRead env cf.params)
  else none

/-- A foreign key constraint of the database (pgtd.py:182-189): the positions of the native and foreign columns. -/
structure PgFk where
  native : String
  foreign : String
  cols : List (Nat × Nat)

/-- The values of the rows of a table, inactive ones included. -/
def pgRows (db : PgDb) (t : String) : List (List Cell) :=
  match PyDict.get? db t with
  | none => []
  | some tab => tab.rows.map Prod.snd

/-- PostgreSQL accepts a row if one of the columns is NULL or some foreign row has the same values (`MATCH SIMPLE`). -/
def pgFkRow (k : PgFk) (parents : List (List Cell)) (r : List Cell) : Bool :=
  k.cols.any (fun c => decide (r[c.1]? = some .none)) || parents.any (fun p => k.cols.all (fun c => decide (r[c.1]? = p[c.2]?)))

/-- The constraints, checked after each statement (they are not declared deferrable). -/
def pgFksHold (fks : List PgFk) (db : PgDb) : Bool :=
  fks.all (fun k => (pgRows db k.native).all (pgFkRow k (pgRows db k.foreign)))

end Ticdat
