import Verif.Model.Obfus
import Verif.Model.PanSame
/-!
# `obfusimplify` of a `PanDatFactory`

The tables are neither generic nor generator tables.
-/
namespace Ticdat

/-- The key of a row as `obfusimplify` sees it. -/
def KeyArg.toPKey : KeyArg → PKey Cell
  | .one v => .one v
  | .tup vs => .many vs

/-- A key of the copy. -/
def PKey.toArg : PKey Cell → KeyArg
  | .one v => .one v
  | .many vs => .tup vs
  | .idx _ => .tup []

/-- A table of the `TicDat` as `obfusimplify` sees it: rows list their data fields in order (utils.py:1062-1107). -/
def tabToData (c : TabClass) : TabVal → TableData Cell
  | .keyed d => .dict (d.map (fun p => (p.1.toPKey, c.dfs.map (fun f => (PyDict.get? p.2 f).getD .none))))
  | .plain rows => .list (rows.map (fun r => c.dfs.map (fun f => (PyDict.get? r f).getD .none)))

/-- A table of the copy. -/
def dataToTab (c : TabClass) : TableData Cell → TabVal
  | .dict rows => .keyed (rows.map (fun p => (p.1.toArg, c.dfs.zip p.2)))
  | .list rows => .plain (rows.map (fun r => c.dfs.zip r))

/-- `schema()` of the factory. -/
def tablesSchema (schema : List (String × TabClass)) : Schema := schema.map (fun tc => (tc.1, ⟨tc.2.pks, tc.2.dfs⟩))

/-- The tables of the `TicDat`. -/
def ticTables (schema : List (String × TabClass)) (dat : PyDict String OutTab) : DB Cell := fun t =>
  match PyDict.get? schema t, PyDict.get? dat t with
  | some c, some (.tab tab) => tabToData c tab
  | _, _ => .list []

/-- One table of `self.PanDat(**{t: getattr(dat2, t)})` with `dat2 = tdf.copy_to_pandas(rtn.copy, reset_index=True)`
(pandatfactory.py:1593-1595). -/
def backToPan (penv : PandasEnv) (tabs : PyDict String (TableData Cell)) (tc : String × TabClass) : Option (String × Frame) :=
  (PyDict.get? tabs tc.1).bind (fun d => (copyToPandas penv tc.2 none true (dataToTab tc.2 d)).bind (fun v =>
    (panInit tc.2 v).map (fun u => (tc.1, u))))

/-- `obfusimplify(pan_dat, table_prepends, skip_tables)` (pandatfactory.py:1563-1595): check the object, copy it to a
`TicDat`, obfuscate that with the `TicDatFactory` clone, and copy the result back.  The result is the copy and the
renamings; `none` is a raised exception.  The other arguments are those of `obfusimplify` for a `TicDatFactory`. -/
def panObfusimplify (env : FactoryEnv) (penv : PandasEnv) (policy : DupPolicy) (iter : List String → List String)
    (upper : String → List Char) (sort : List Cell → Option (List Cell)) (schema : List (String × TabClass)) (fks0 fks : List FK)
    (obj : PyDict String Frame) (tablePrepends : PyDict String String) (skip : List String) :
    Option (PyDict String Frame × PyDict String (String × Cell)) :=
  if goodPanObject (schema.map (fun tc => (tc.1, TabKind.plain tc.2))) obj then
    (copyToTicDat env policy (schema.map (fun tc => (tc.1, TabKind.plain tc.2))) obj).bind (fun dat =>
      (obfusimplify iter upper sort Cell.str (tablesSchema schema) fks0 fks (ticTables schema dat) tablePrepends skip).bind (fun out =>
        (schema.mapM (backToPan penv out.1)).map (fun frames => (frames, out.2))))
  else none

end Ticdat
