import Verif.Model.Pg
import Verif.Model.PanRead
/-!
# PostgreSQL schemas written and read by `PostgresPanFactory`

The database is that of `Model/Pg.lean`.  `DataFrame.to_sql` inserts the rows of a table one after the other, all or none of
them.  Whether the table is committed by it depends on the versions of pandas and sqlalchemy and on the connection: that is
a parameter of the model.  Simplification: the context managers of `table_specific_context_manager` do nothing.
-/
namespace Ticdat

/-- `_pre_write_adjustment` of any table (pandatfactory.py:521-572): the fields of the table; in the parameters table null
is `None` if parameters are declared, in the other tables the infinities are replaced. -/
def panPreAny (env : TextEnv) (cf : IOConf) (t : String) (c : TabClass) (v : Frame) : Option Frame :=
  if t = "parameters" then
    (v.select (c.fields.map .name)).bind (fun w =>
      if cf.params = [] then some w else w.adjust (fun _ col => some (col.map panWriteParam)) (c.dfs.take 1))
  else panPre env cf t c v

/-- `_general_post_read_adjustment` of any table (pandatfactory.py:465-520), `json` is `json_read`. -/
def panPostAny (env : TextEnv) (lower : String → String) (cf : IOConf) (push json : Bool) (t : String) (c : TabClass) (v : Frame) :
    Option Frame :=
  if t = "parameters" then
    if cf.params = [] then some v
    else
      match c.pks, c.dfs with
      | [k], [f] => do
        let ks ← v.colOf k
        let vs ← v.colOf f
        some (v.setCol f (List.zipWith (panFixParam env lower cf.params push json) ks vs))
      | _, _ => none
  else panPost env lower cf json t c v

/-- What `to_sql` hands to the database is what is in the DataFrame. -/
def handedAsIs : IOConf := ⟨[], .na, false, []⟩

/-- The rows that `write_data` uploads, table by table (pgtd.py:575-581): the index of the DataFrame is not written. -/
def pgPanData (env : TextEnv) (cf : IOConf) (schema : List (String × TabClass)) (dat : PyDict String Frame) (order : List String) :
    Option (List (List ((String × TabClass) × List Cell))) :=
  order.mapM (fun t => (PyDict.get? schema t).bind (fun c => (PyDict.get? dat t).bind (fun v =>
    (panPreAny env cf t c v).map (fun w => w.rows.map (fun r => ((t, c), r.2))))))

/-- The loop over the tables (pgtd.py:577-589): the database, and whether an exception was raised.  `progress i` is "go on
after the `i`-th table"; `each` is "`to_sql` commits the table"; `saved` is what is committed so far. -/
def pgPanUpload (insert : (String × TabClass) × List Cell → PgDb → Option PgDb) (progress : Nat → Bool) (each : Bool) :
    Nat → List (List ((String × TabClass) × List Cell)) → PgDb → PgDb → PgDb × Bool
  | _, [], _, db => (db, false)
  | i, rows :: rest, saved, db =>
    match runSteps insert rows db with
    | (_, true) => (saved, true)
    | (db', false) =>
      if progress i then pgPanUpload insert progress each (i + 1) rest (if each then db' else saved) db' else (db', false)

/-- `PostgresPanFactory.write_data` (pgtd.py:520-589): the database afterwards, and whether an exception was raised.  The
deletions are those of `_handle_prexisting_rows`, each of which is committed. -/
def pgPanWrite (env : TextEnv) (cenv : CaseEnv) (reserved : List (List Char)) (cf : IOConf) (store : Store)
    (check : PgDb → Bool) (useActive dflt : Bool) (del : String → Bool) (progress : Nat → Bool) (each : Bool)
    (order : List String) (schema : List (String × TabClass)) (dat : PyDict String Frame) (db : PgDb) : PgDb × Bool :=
  if schema.all (fun tc => pgCompatible cenv reserved tc.1.toList (tc.2.fields.map String.toList) &&
      ((PyDict.get? dat tc.1).map (goodPanTable tc.2)).getD false && PyDict.has db tc.1) then
    match runSteps (pgDelete check del) order.reverse db with
    | (db', true) => (db', true)
    | (db', false) =>
      match pgPanData env cf schema dat order with
      | none => (db', true)
      | some data => pgPanUpload (pgInsert env handedAsIs store check useActive dflt) progress each 0 data db' db'
  else (db, true)

/-- One table of `create_pan_dat` (pgtd.py:508-518, 965-1013 of pandatfactory.py): `sql` is what `pd.read_sql` makes of the
rows of the query. -/
def pgPanTable (env : TextEnv) (lower : String → String) (cf : IOConf) (sql : String → List (List Cell) → List (List Cell))
    (useActive : Bool) (db : PgDb) (tc : String × TabClass) : Option Frame :=
  match PyDict.get? db tc.1 with
  | none => panPostAny env lower cf true false tc.1 tc.2 (emptyFrame tc.2)
  | some tab =>
    let rows := (tab.rows.filter (fun r => !(useActive && tab.active) || r.1)).map Prod.snd
    (panInit tc.2 ⟨[], tc.2.fields.map .name, (sql tc.1 rows).map (fun r => ([], r))⟩).bind
      (panPostAny env lower cf true false tc.1 tc.2)

/-- `create_pan_dat` (pgtd.py:491-518). -/
def pgPanCreate (env : TextEnv) (lower : String → String) (cenv : CaseEnv) (reserved : List (List Char)) (cf : IOConf)
    (sql : String → List (List Cell) → List (List Cell)) (useActive : Bool) (schema : List (String × TabClass)) (db : PgDb) :
    Option (PyDict String Frame) :=
  if schema.all (fun tc => pgCompatible cenv reserved tc.1.toList (tc.2.fields.map String.toList)) then
    schema.mapM (fun tc => (pgPanTable env lower cf sql useActive db tc).map (fun w => (tc.1, w)))
  else none

end Ticdat
