/-!
# `standard_main`

The command line of an engine (utils.py:424-664).  What the file system, the readers, the writers and `solve` do is a parameter;
the model is the sequence of calls that `standard_main` makes.  Simplifications: `sys.argv` has been through `getopt.getopt`; the
Foresta options are left out; printing is left out.
-/
namespace Ticdat

/-- Are the schemas `TicDatFactory` or `PanDatFactory` objects (utils.py:468-479)? -/
inductive MainKind where
  | tic
  | pan
deriving DecidableEq, Repr

/-- The file formats. -/
inductive Fmt where
  | json
  | xls
  | db
  | sql
  | mdb
  | csv
deriving DecidableEq, Repr

/-- `f.endswith(ext)`. -/
def endsWith (f ext : String) : Bool := ext.toList.isSuffixOf f.toList

/-- `recognized_extensions` (utils.py:509-511). -/
def recognizedExtensions : MainKind → List String
  | .pan => [".json", ".xls", ".xlsx", ".db"]
  | .tic => [".json", ".xls", ".xlsx", ".db", ".sql", ".mdb", ".accdb"]

/-- `file_or_dir(f) == "file"` (utils.py:555). -/
def isFileName (k : MainKind) (f : String) : Bool := (recognizedExtensions k).any (endsWith f)

/-- What the file system says about a path. -/
structure Paths where
  isFile : String → Bool
  isDir : String → Bool

/-- `os.path.exists`. -/
def Paths.exists (fs : Paths) (f : String) : Bool := fs.isFile f || fs.isDir f

/-- The reader that `_get_dat_object` uses (utils.py:615-634); `none` if there is none, which raises (636). -/
def readFormat (k : MainKind) (fs : Paths) (f : String) : Option Fmt :=
  if fs.isFile f && isFileName k f then
    if endsWith f ".json" then some .json
    else if endsWith f ".xls" || endsWith f ".xlsx" then some .xls
    else if endsWith f ".db" then some .db
    else if endsWith f ".sql" then some .sql
    else if endsWith f ".mdb" || endsWith f ".accdb" then some .mdb
    else none
  else if fs.isDir f && !isFileName k f then some .csv
  else none

/-- The writer that `_get_write_function_and_kwargs` finds (utils.py:639-654): a later `if` overrides an earlier one; `tdf` is a
factory of kind `w`, the file endings are those that are recognized for kind `k`.  A `PanDatFactory` has no `sql.write_sql_file`
and no `mdb`, which raises `AttributeError`; `none` is a raised exception. -/
def writeFormat (k w : MainKind) (f : String) : Option Fmt :=
  if isFileName k f then
    let r := if endsWith f ".json" then some Fmt.json else none
    let r := if endsWith f ".xls" || endsWith f ".xlsx" then some .xls else r
    let r := if endsWith f ".db" then some .db else r
    let sql := endsWith f ".sql"
    let mdb := endsWith f ".mdb" || endsWith f ".accdb"
    if (sql || mdb) && decide (w = .pan) then none
    else
      let r := if sql then some .sql else r
      if mdb then some .mdb else r
  else some .csv

/-- A command line option that `getopt` found (utils.py:485, 491-504; `-f` is left out). -/
inductive Opt where
  | help
  | input (a : String)
  | output (a : String)
  | errors (a : String)
deriving DecidableEq, Repr

/-- The loop over the options (utils.py:490-504): input, output and errors; `none` is `sys.exit()` after the usage message. -/
def parseOpts : List Opt → String × String × Option String → Option (String × String × Option String)
  | [], acc => some acc
  | .help :: _, _ => none
  | .input a :: rest, (_, o, e) => parseOpts rest (a, o, e)
  | .output a :: rest, (i, _, e) => parseOpts rest (i, a, e)
  | .errors a :: rest, (i, o, _) => parseOpts rest (i, o, some a)

/-- What `solve` returns: something falsey, a solution, a pair of a message and one of these, or something that cannot be turned
into a Boolean; or it raises. -/
inductive SolveResult (S : Type) where
  | raises
  | falsey
  | solution (s : S)
  | message (m : String) (s : Option S)
  | noBool

/-- The library functions that `standard_main` calls.
* `hasDups`, `read`: the readers; `read` is `none` if the reader raises.
* `report`: `_integrity_solve` (utils.py:340-422), with the number of rows of its tables; `none` if it raises.
* `solve`: the function of the user; its argument is `none` for Python's `None`. -/
structure MainEnv (D S E : Type) where
  fs : Paths
  hasDups : Fmt → String → Bool
  read : Fmt → String → Option D
  report : D → Option (E × Nat)
  solve : Option D → SolveResult S

/-- What can be observed of a run: the calls of a reader, of `solve` and of the writers. -/
inductive MainEvent (D S E : Type) where
  | read (fmt : Fmt) (path : String)
  | solve (dat : Option D)
  | write (fmt : Fmt) (path : String) (sln : S)
  | writeErrors (fmt : Fmt) (path : String) (errors : E)

/-- `_get_dat_object` (utils.py:614-637): the data, or `none` for an exception.  Duplicates are looked for by `TicDatFactory` readers
other than the one for `.sql` files. -/
def getDat {D S E : Type} (k : MainKind) (env : MainEnv D S E) (f : String) : Option (Fmt × D) :=
  match readFormat k env.fs f with
  | none => none
  | some fmt =>
    if decide (k = .tic) && decide (fmt ≠ .sql) && env.hasDups fmt f then none
    else (env.read fmt f).map (fun d => (fmt, d))

/-- The end of `standard_main` (utils.py:605-612): the solution is written.  `write_sln_func` is `None` if `output_file` is the empty
string, and calling `None` raises. -/
def writeSolution {D S E : Type} (ofmt : Option Fmt) (output : String) : Option S → List (MainEvent D S E) × Bool
  | none => ([], true)
  | some s =>
    match ofmt with
    | none => ([], false)
    | some fmt => ([.write fmt output s], true)

/-- The call of `solve` and what follows (utils.py:589-612): the calls, and whether the run ends without an exception. -/
def solveAndWrite {D S E : Type} (env : MainEnv D S E) (ofmt : Option Fmt) (output : String) (dat : Option D) :
    List (MainEvent D S E) × Bool :=
  match env.solve dat with
  | .raises => ([.solve dat], false)
  | .noBool => ([.solve dat], false)
  | .falsey => ([.solve dat], true)
  | .solution s => ((.solve dat) :: (writeSolution ofmt output (some s)).1, (writeSolution (D := D) (E := E) ofmt output (some s)).2)
  | .message _ s => ((.solve dat) :: (writeSolution ofmt output s).1, (writeSolution (D := D) (E := E) ofmt output s).2)

/-- The check for integrity errors, and what follows (utils.py:572-612).  `_integrity_solve` raises if there is no data. -/
def checkAndSolve {D S E : Type} (k : MainKind) (env : MainEnv D S E) (ofmt : Option Fmt) (output : String)
    (errors : Option String) (dat : Option D) : List (MainEvent D S E) × Bool :=
  match errors with
  | none => solveAndWrite env ofmt output dat
  | some ef =>
    if ef = "" then solveAndWrite env ofmt output dat
    else
      match dat.bind env.report with
      | none => ([], false)
      | some (err, n) =>
        match writeFormat k .pan ef with
        | none => ([], false)
        | some efmt =>
          if n = 0 then
            (.writeErrors efmt ef err :: (solveAndWrite env ofmt output dat).1, (solveAndWrite env ofmt output dat).2)
          else ([.writeErrors efmt ef err], true)

/-- The writer of the solution is found before anything is checked or solved (utils.py:566-612). -/
def afterRead {D S E : Type} (k : MainKind) (env : MainEnv D S E) (output : String) (errors : Option String) (dat : Option D) :
    List (MainEvent D S E) × Bool :=
  if output = "" then checkAndSolve k env none output errors dat
  else
    match writeFormat k k output with
    | none => ([], false)
    | some ofmt => checkAndSolve k env (some ofmt) output errors dat

/-- The body of `standard_main` after the options are known (utils.py:555-612). -/
def runMain {D S E : Type} (k : MainKind) (env : MainEnv D S E) (input output : String) (errors : Option String) :
    List (MainEvent D S E) × Bool :=
  if input = "" then afterRead k env output errors none
  else if !env.fs.exists input then ([], true)
  else
    match getDat k env input with
    | none => ([], false)
    | some (fmt, dat) =>
      (.read fmt input :: (afterRead k env output errors (some dat)).1, (afterRead k env output errors (some dat)).2)

/-- `standard_main` (utils.py:424-612). -/
def standardMain {D S E : Type} (k : MainKind) (env : MainEnv D S E) (opts : List Opt) : List (MainEvent D S E) × Bool :=
  match parseOpts opts ("input.xlsx", "output.xlsx", none) with
  | none => ([], true)
  | some (i, o, e) => runMain k env i o e

end Ticdat
