import Verif.Model.Utils
/-!
# Names: how tables and fields are matched to files, sheets, keys and columns

Strings are lists of characters.
-/
namespace Ticdat

/-- Python's character tables: the lower and upper case of a character (possibly several characters), `isalnum` and
`isdigit`.  Simplification: `str.lower` is taken character by character (Python treats a final sigma differently). -/
structure CaseEnv where
  lo : Char → List Char
  up : Char → List Char
  alnum : Char → Bool
  digit : Char → Bool

/-- `s.lower()`. -/
def CaseEnv.lower (env : CaseEnv) (s : List Char) : List Char := s.flatMap env.lo

/-- `s.replace(" ", "_")`. -/
def unblank (s : List Char) : List Char := s.map (fun c => if c = ' ' then '_' else c)

/-- The loop of `case_space_to_pretty` (utils.py:800-805): underscores become blanks, the character after one is put
in upper case. -/
def prettyGo (env : CaseEnv) : Bool → List Char → List Char
  | _, [] => []
  | raiseIt, c :: cs =>
    if c = '_' then ' ' :: prettyGo env true cs
    else (if raiseIt then env.up c else [c]) ++ prettyGo env false cs

/-- `case_space_to_pretty` (utils.py:797-806). -/
def pretty (env : CaseEnv) : List Char → List Char
  | [] => []
  | c :: cs => prettyGo env false (env.up c ++ cs)

/-- The checks of table names in `TicDatFactory.__init__` (ticdatfactory.py:651-657): no leading underscore, no blank,
no two names equal up to case. -/
def goodTableNames (env : CaseEnv) (tables : List (List Char)) : Bool :=
  tables.all (fun t => !decide (t.head? = some '_')) && tables.all (fun t => !t.contains ' ') &&
    decide ((tables.map env.lower).Nodup)

/-- Is the file name `f` (without directory) the csv file of the table: `f.lower().replace(" ", "_") ==
"%s.csv" % table.lower()` (csvtd.py:165, pandatio.py:333). -/
def csvMatches (env : CaseEnv) (table f : List Char) : Bool :=
  decide (unblank (env.lower f) = env.lower table ++ ".csv".toList)

/-- `_get_file_path` (csvtd.py:162-168), `files` are the names in the directory: `none` is the raised error, `some none`
a missing file. -/
def csvFilePath (env : CaseEnv) (files : List (List Char)) (table : List Char) : Option (Option (List Char)) :=
  match files.filter (csvMatches env table) with
  | [] => some none
  | [f] => some (some f)
  | _ => none

/-- Is `k` the json key of the table: `t.lower() == t2.replace(" ", "_").lower()` (jsontd.py:166), for PanDat
`c.lower().replace(" ", "_") == table.lower()` (pandatio.py:141). -/
def jsonMatches (env : CaseEnv) (table k : List Char) : Bool := decide (env.lower table = env.lower (unblank k))

/-- `len(set(all_tables)) == len(set(map(case_space_to_pretty, all_tables)))` (csvtd.py:254-256, xls.py:411-413). -/
def prettyDistinct (env : CaseEnv) (tables : List (List Char)) : Bool := decide ((tables.map (pretty env)).Nodup)

/-- The name under which a table is written (csvtd.py:254-258, xls.py:411-415). -/
def tableNameOut (env : CaseEnv) (tables : List (List Char)) (caseSpace : Bool) (t : List Char) : List Char :=
  if caseSpace && prettyDistinct env tables then pretty env t else t

/-- `_longest_sheet` (xls.py:35, pandatio.py:22). -/
def longestSheet : Nat := 30

/-- `_verify_differentiable_sheet_names` (xls.py:169-175, pandatio.py:579-585): no two tables have the same first 30
characters. -/
def sheetNamesDiffer (tables : List (List Char)) : Bool := decide ((tables.map (List.take longestSheet)).Nodup)

/-- Is the sheet named `s` the sheet of the table (xls.py:189, pandatio.py:590). -/
def sheetMatches (env : CaseEnv) (table s : List Char) : Bool :=
  decide ((env.lower table).take longestSheet = (unblank (env.lower s)).take longestSheet)

/-- The sheet of a table among the sheets of a book (xls.py:188-193, pandatio.py:587-595): `none` is the raised error for
a duplicated sheet, `some none` a missing one. -/
def sheetOf (env : CaseEnv) (sheets : List (List Char)) (table : List Char) : Option (Option (List Char)) :=
  match sheets.filter (sheetMatches env table) with
  | [] => some none
  | [f] => some (some f)
  | _ => none

/-- The sheet name under which a table is written (xls.py:414-415, 431, 463). -/
def sheetNameOut (env : CaseEnv) (tables : List (List Char)) (caseSpace : Bool) (t : List Char) : List Char :=
  (tableNameOut env tables caseSpace t).take longestSheet

/-- The steps of csv `write_directory` (csvtd.py:243-259): the files that exist (`exists`), the tables in iteration order.
The answer is the list of file names opened for writing, or `none` when the overwrite check raises first. -/
def csvWriteFiles (env : CaseEnv) (existing : List (List Char)) (tables : List (List Char)) (allowOverwrite caseSpace : Bool) :
    Option (List (List Char)) :=
  if !allowOverwrite && tables.any (fun t => existing.contains (t ++ ".csv".toList)) then none
  else some (tables.map (fun t => tableNameOut env tables caseSpace t ++ ".csv".toList))

/-- `_pg_name` (pgtd.py:36-40). -/
def pgName (env : CaseEnv) (name : List Char) : List Char :=
  match (env.lower name).map (fun c => if env.alnum c then c else '_') with
  | [] => []
  | c :: cs => (if env.digit c then '_' else c) :: cs

/-- `_check_good_pgtd_compatible_table_field_names` (pgtd.py:50-63) for one table: the table name is its own postgres
name, the postgres names of the fields are distinct, and no field is a reserved word up to case. -/
def pgCompatible (env : CaseEnv) (reserved : List (List Char)) (table : List Char) (fields : List (List Char)) : Bool :=
  decide (pgName env table = table) && decide ((fields.map (pgName env)).Nodup) &&
    !(fields.any (fun f => reserved.contains (env.lower f)))

/-! ### csv rows -/

/-- A row of `csv.DictReader` with the given header: a dictionary from header text to cell text, `none` for the missing
cells of a short row.  A repeated header keeps its first position and its last value.  A row longer than the header
gets the extra key `None`, given by the second component. -/
def dictReaderRow (header : List (List Char)) (vals : List Cell) : PyDict (List Char) Cell × Bool :=
  (PyDict.ofList (header.zip (vals ++ List.replicate (header.length - vals.length) Cell.none)),
    decide (header.length < vals.length))

/-- The `headers_present` branch of `_get_data` for one row (csvtd.py:180-189): the raw cells by field.  `none` is a
raised exception: the `None` key has no `lower`, a field has no column, or two. -/
def csvRowByHeader (env : CaseEnv) (fields : List (List Char)) (header : List (List Char)) (vals : List Cell) :
    Option (PyDict (List Char) Cell) :=
  let row := dictReaderRow header vals
  if row.2 then none
  else fields.mapM (fun f =>
    match (PyDict.keys row.1).filter (fun k => decide (env.lower k = env.lower f)) with
    | [k] => (PyDict.get? row.1 k).map (fun v => (f, v))
    | _ => none)

/-- The other branch (csvtd.py:173-179): the header is the list of fields. -/
def csvRowNoHeader (fields : List (List Char)) (vals : List Cell) : Option (PyDict (List Char) Cell) :=
  let row := dictReaderRow fields vals
  if row.2 then none else fields.mapM (fun f => (PyDict.get? row.1 f).map (fun v => (f, v)))

/-- `_get_data` on the lines of a file with a header (csvtd.py:169-189): checks happen row by row. -/
def csvRows (env : CaseEnv) (fields header : List (List Char)) (lines : List (List Cell)) :
    Option (List (PyDict (List Char) Cell)) :=
  lines.mapM (csvRowByHeader env fields header)

end Ticdat
