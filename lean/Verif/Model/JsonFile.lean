import Verif.Model.PanFiles
import Verif.Model.PanSame
import Verif.Model.GenericFiles
/-!
# json files as a whole: `create_tic_dat` and `write_file`

The file system is a dictionary from paths to files and directories.  The json library is a parameter.  Simplifications: any
path can be opened for writing unless it is a directory; `freeze_it` is C27; what is printed is not modelled.
-/
namespace Ticdat

/-- What is at a path. -/
inductive FileEntry
  | file (text : String)
  | dir
deriving DecidableEq

/-- The file system; `os.path.exists` is `PyDict.has`. -/
abbrev Disk := PyDict String FileEntry

/-- A value in a json object: a list of rows, an object with its keys (and what pandas would see in it), or neither. -/
inductive JVal
  | rows (l : List RowIn)
  | frame (keys : List String) (v : Frame)
  | bare

/-- A json text: an object, or something else. -/
inductive JDoc
  | object (d : PyDict String JVal)
  | other

/-- The json library: `json.loads`, `json.dumps(.., sort_keys=True, indent=2)` for values it can encode, and what
`json.dump` has put into the file when it meets a value that it cannot encode. -/
structure JsonLib where
  loads : String → Option JDoc
  dumps : PyDict String (List RowIn) → String
  torn : PyDict String (List RowIn) → String

/-- What the code is given by its libraries. -/
structure JsonEnv where
  factory : FactoryEnv
  lower : String → String
  store : PandasEnv
  missing : TabClass → Frame → List String
  pandas : String → Frame → Option Frame
  lib : JsonLib

/-- The `TicDatFactory` behind a `JsonTicFactory`; `panOk` tells whether a `PanDatFactory` can be created from its schema
(C18 and C69 tell when). -/
structure JsonFactory where
  kinds : List (String × TabKind)
  cf : IOConf
  policy : DupPolicy
  panOk : Bool

/-- The tables and their classes. -/
def JsonFactory.classes (fc : JsonFactory) : List (String × TabClass) := fc.kinds.map (fun tk => (tk.1, tk.2.cls))

def TabKind.isPlain : TabKind → Bool
  | .plain _ => true
  | _ => false

/-- `_standard_verify` (jsontd.py:19-23): neither generator tables nor generic tables. -/
def jsonVerify (fc : JsonFactory) : Bool := fc.kinds.all (fun tk => tk.2.isPlain)

/-- Equality of the sets of the elements of two lists. -/
def sameElems (l m : List String) : Bool := l.all (fun x => decide (x ∈ m)) && m.all (fun x => decide (x ∈ l))

def JVal.isBare : JVal → Bool
  | .bare => true
  | _ => false

/-- `dictish(v) and set(v.keys()) == {'columns', 'data'}` (jsontd.py:66). -/
def JVal.split : JVal → Bool
  | .frame ks _ => sameElems ks ["columns", "data"]
  | _ => false

/-- `_looks_pandas` (jsontd.py:64-66). -/
def looksPandas (fc : JsonFactory) (doc : PyDict String JVal) : Bool :=
  if !fc.kinds.all (fun tk => sameElems tk.2.fields ["columns", "data"]) then doc.all (fun p => p.2.split) else false

/-- The text that is read: that of the file, or the argument itself (jsontd.py:136-150, pandatio.py:98-104); `none` for a
directory. -/
def jsonText (path : String) (disk : Disk) : Option String :=
  match PyDict.get? disk path with
  | some .dir => none
  | some (.file s) => some s
  | none => some path

/-- `_create_jdict` (jsontd.py:135-159): an object whose values are containers. -/
def createJdict (lib : JsonLib) (path : String) (disk : Disk) : Option (PyDict String JVal) :=
  (jsonText path disk).bind (fun s => (lib.loads s).bind (fun d =>
    match d with
    | .object doc => if doc.all (fun p => !p.2.isBare) then some doc else none
    | .other => none))

/-- What iterating over a value of the object gives (jsontd.py:175): the rows of a list, the keys of an object. -/
def JVal.iter : JVal → List RowIn
  | .rows l => l
  | .frame ks _ => ks.map (fun k => .scalar (.str k))
  | .bare => []

/-- A row that is a list. -/
def RowIn.seq? : RowIn → Option (List Cell)
  | .seq vs => some vs
  | _ => none

/-- A value as the `PanDat` reader sees it.  Simplification: in a list of rows each row is a list. -/
def JVal.pan : JVal → JPan
  | .rows l => ((l.mapM RowIn.seq?).map JPan.lol).getD .other
  | .frame _ v => .obj v
  | .bare => .other

/-- `create_tic_dat` with `from_pandas` (jsontd.py:88-92): the `PanDat` reader (pandatio.py:98-136), then
`copy_to_tic_dat`. -/
def jsonCreatePan (e : JsonEnv) (fc : JsonFactory) (path : String) (disk : Disk) : Option (PyDict String OutTab) :=
  if fc.panOk then
    (jsonText path disk).bind (fun s => (e.lib.loads s).bind (fun d =>
      match d with
      | .object doc =>
        (jsonPanRead e.factory.text e.factory.case e.lower fc.cf false e.missing e.pandas fc.classes
          (doc.map (fun p => (p.1, p.2.pan)))).bind (copyToTicDat e.factory fc.policy fc.kinds)
      | .other => none))
  else none

/-- json `create_tic_dat` (jsontd.py:67-106). -/
def jsonReadFile (e : JsonEnv) (fc : JsonFactory) (fromPandas : Bool) (path : String) (disk : Disk) :
    Option (PyDict String OutTab) :=
  if jsonVerify fc then
    if fromPandas then jsonCreatePan e fc path disk
    else (createJdict e.lib path disk).bind (fun doc =>
      if looksPandas fc doc then jsonCreatePan e fc path disk
      else (jsonCreate e.factory.text e.factory.case fc.cf fc.policy fc.classes (doc.map (fun p => (p.1, p.2.iter)))).map
        (fun dat => dat.map (fun p => (p.1, .tab p.2))))
  else none

/-! ### Writing -/

/-- `make_row` (jsontd.py:34-37): as `jsonMakeRow`, before the row is encoded. -/
def jsonRow (env : TextEnv) (cf : IOConf) (t : String) (fields : List String) (verbose : Bool) (row : List Cell) : Option RowIn :=
  if row.length = fields.length then
    (mapCells (jsonWriteCell env cf t) fields row).map (fun vs =>
      if verbose then .dict (PyDict.ofList (fields.zip vs)) else .seq vs)
  else none

/-- `make_json_dict` (jsontd.py:25-47): the dictionary, before it is encoded. -/
def makeJsonDict (env : TextEnv) (cf : IOConf) (verbose : Bool) (schema : List (String × TabClass)) (dat : PyDict String TabVal) :
    Option (PyDict String (List RowIn)) :=
  schema.mapM (fun tc => (PyDict.get? dat tc.1).bind (fun tab =>
    ((flatRows tc.2 tab).bind (fun rows => rows.mapM (jsonRow env cf tc.1 tc.2.fields verbose))).map (fun rows => (tc.1, rows))))

/-- Can json encode all cells of a row? -/
def RowIn.encodable : RowIn → Bool
  | .dict d => d.all (fun p => jsonable p.2)
  | .seq vs => vs.all jsonable
  | .scalar v => jsonable v

def encodable (d : PyDict String (List RowIn)) : Bool := d.all (fun p => p.2.all RowIn.encodable)

/-- What a call of `write_file` does: it raises, returns a text, or returns nothing. -/
inductive WriteOut
  | raised
  | text (s : String)
  | done
deriving DecidableEq

/-- The end of `write_file` (jsontd.py:212-215, pandatio.py:177-180): the text for a falsy path; otherwise the file is opened,
which empties it, and filled as the encoding goes on. -/
def jsonDump (lib : JsonLib) (d : PyDict String (List RowIn)) (path : String) (disk : Disk) : WriteOut × Disk :=
  if path = "" then (if encodable d then (.text (lib.dumps d), disk) else (.raised, disk))
  else
    match PyDict.get? disk path with
    | some .dir => (.raised, disk)
    | _ => if encodable d then (.done, PyDict.set disk path (.file (lib.dumps d)))
      else (.raised, PyDict.set disk path (.file (lib.torn d)))

/-- A list of lists as the library gets it. -/
def JPan.rowsOut : JPan → Option (List RowIn)
  | .lol rows => some (rows.map .seq)
  | _ => none

/-- `copy_to_pandas(tic_dat, drop_pk_columns=False)` (ticdatfactory.py:1607-1677) for all tables. -/
def allToPandas (penv : PandasEnv) (schema : List (String × TabClass)) (dat : PyDict String TabVal) : Option (PyDict String Frame) :=
  schema.mapM (fun tc => (PyDict.get? dat tc.1).bind (fun tab => (copyToPandas penv tc.2 (some false) false tab).map (fun v => (tc.1, v))))

/-- The dictionary that is written with `to_pandas` (jsontd.py:201-205, pandatio.py:159-176). -/
def makePandasDict (e : JsonEnv) (fc : JsonFactory) (dat : PyDict String TabVal) : Option (PyDict String (List RowIn)) :=
  if fc.panOk then
    (allToPandas e.store fc.classes dat).bind (fun frames => (jsonPanWrite e.factory.text fc.cf fc.classes frames).bind (fun d =>
      d.mapM (fun p => p.2.rowsOut.map (fun rows => (p.1, rows)))))
  else none

/-- `good_tic_dat_object(tic_dat)` (jsontd.py:207-208, ticdatfactory.py:1635-1637). -/
def jsonGood (fc : JsonFactory) (dat : PyDict String TabVal) : Bool :=
  decide (goodTicDatObject false fc.kinds (dat.map (fun p => (p.1, .tab p.2.asInput))) = some true)

/-- json `write_file` (jsontd.py:181-215). -/
def jsonWriteFile (e : JsonEnv) (fc : JsonFactory) (dat : PyDict String TabVal) (path : String) (overwrite verbose toPandas : Bool)
    (disk : Disk) : WriteOut × Disk :=
  if !jsonVerify fc then (.raised, disk)
  else if toPandas && verbose then (.raised, disk)
  else if decide (path ≠ "") && PyDict.has disk path && !overwrite then (.raised, disk)
  else if !jsonGood fc dat then (.raised, disk)
  else
    match (if toPandas then makePandasDict e fc dat else makeJsonDict e.factory.text fc.cf verbose fc.classes dat) with
    | none => (.raised, disk)
    | some d => jsonDump e.lib d path disk

end Ticdat
