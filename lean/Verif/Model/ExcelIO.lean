import Verif.Model.TableIO
/-!
# Excel files

A sheet is modelled by the cells that are stored in it: `.none` where no cell is stored.  What xlwt, xlrd, xlsxwriter and
openpyxl do to single cells is part of the model (`xlPut`, `xlFill`).  Limits on the number of rows and the length of
texts are not modelled.
-/
namespace Ticdat

/-- The two kinds of files: `.xls` (xlwt, xlrd) and `.xlsx` (xlsxwriter, openpyxl). -/
inductive XlKind where
  | xls
  | xlsx
deriving DecidableEq, Repr

/-- The library functions Excel input and output depends on.  They are not modelled; theorems state what they need of
them.
* `xlsxText s`: what openpyxl reads where xlsxwriter was given the non-empty text `s` (texts that look like formulas or
  links are not stored as they are), `none` if writing it raises.
* `xldate x`: `xldate_as_tuple_munge` of a number (xls.py:48-54), `none` if it gives `None`. -/
structure XlEnv where
  text : TextEnv
  case : CaseEnv
  xlsxText : String → Option Cell
  xldate : XNum → Option Nat

/-- The arguments of `create_tic_dat` and the setting `xlsx_trailing_empty_rows` (`prune`). -/
structure XlOpts where
  kind : XlKind
  prune : Bool
  headers : Bool
  treatInf : Bool
  offset : String → Nat

/-- Rows of stored cells. -/
abbrev Grid := List (List Cell)

/-- The cell in row `i` and column `j`. -/
def Grid.at (g : Grid) (i j : Nat) : Cell := ((g[i]?).bind (fun row => row[j]?)).getD .none

/-! ### Writing -/

/-- Infinities and datetimes as text (xls.py:457-458). -/
def xlsxShow (env : XlEnv) (w : Cell) : Cell :=
  match w with
  | .num .pinf => .str (env.text.text w)
  | .num .ninf => .str (env.text.text w)
  | .dt _ => .str (env.text.text w)
  | w => w

/-- `clean_for_write` (xls.py:423-426 for `.xls`, 453-459 for `.xlsx`). -/
def xlClean (env : XlEnv) (cf : IOConf) (kind : XlKind) (t f : String) (x : Cell) : Option Cell :=
  match kind with
  | .xls => match x with
    | .dt _ => some (.str (env.text.text x))
    | x => writeCell env.text cf t f x
  | .xlsx =>
    (if cf.flag ≠ .na ∨ (t = "parameters" ∧ cf.params ≠ []) then writeCell env.text cf t f x else some x).map
      (xlsxShow env)

/-- `sheet.write` (xls.py:433, 439, 443, 465, 472, 476): the cell that is stored, `.none` for no cell, or `none` for an
exception.  Both libraries store no readable cell for `None` and the empty text; xlwt stores a Boolean as a number that
xlrd gives as 0 or 1; xlsxwriter raises on NaN and on infinities; both raise on objects of other types (datetimes do not
get here). -/
def xlPut (env : XlEnv) (kind : XlKind) (x : Cell) : Option Cell :=
  match x with
  | .none => some .none
  | .str s => if s = "" then some .none else if kind = .xls then some (.str s) else env.xlsxText s
  | .num (.fin q) => some (.num (.fin q))
  | .num y => if kind = .xls then some (.num y) else none
  | .nan => if kind = .xls then some .nan else none
  | .bool b => if kind = .xls then some (.num (.fin (if b then 1 else 0))) else some (.bool b)
  | .dt _ => none
  | .other _ => none

/-- One cell on its way into the sheet. -/
def xlWriteCell (env : XlEnv) (cf : IOConf) (kind : XlKind) (t f : String) (x : Cell) : Option Cell :=
  (xlClean env cf kind t f x).bind (xlPut env kind)

/-- The sheet of a table (xls.py:428-443, 460-476): the header, then the rows. -/
def xlTable (env : XlEnv) (cf : IOConf) (kind : XlKind) (t : String) (c : TabClass) (tab : TabVal) : Option Grid :=
  (c.fields.mapM (fun f => xlPut env kind (.str f))).bind (fun header =>
    ((flatRows c tab).bind (fun rows => rows.mapM (mapCells (xlWriteCell env cf kind t) c.fields))).map (fun rows =>
      header :: rows))

/-- The sheets of a file, by name. -/
abbrev Book := PyDict (List Char) Grid

/-- The names xlwt and xlsxwriter accept for a sheet. -/
def okSheetName (kind : XlKind) (s : List Char) : Bool :=
  !s.isEmpty && decide (s.length ≤ 31) && s.all (fun c => !("[]:*?/\\".toList.contains c) && c ≠ '\x00') &&
    !decide (s.head? = some '\'') && (kind = .xls || !decide (s.getLast? = some '\''))

/-- The sheet name of a table (xls.py:411-415, 431, 463). -/
def xlSheetName (cenv : CaseEnv) (schema : List (String × TabClass)) (caseSpace : Bool) (t : String) : List Char :=
  sheetNameOut cenv (schema.map (fun tc => tc.1.toList)) caseSpace t.toList

/-- `write_file` (xls.py:376-477); `existing` is the file at the path, if any: it is replaced.  `none` is a raised
exception; both libraries raise on sheet names that are equal up to case.  Simplification: the sheets are in the order of
the schema, not ordered by the number of key fields.  The check `good_tic_dat_object` is not modelled here (`dat` has the
right shape in the theorems). -/
def xlWrite (env : XlEnv) (cf : IOConf) (kind : XlKind) (allowOverwrite caseSpace : Bool)
    (schema : List (String × TabClass)) (dat : PyDict String TabVal) (existing : Option Book) : Option Book :=
  if sheetNamesDiffer (schema.map (fun tc => tc.1.toList)) && (allowOverwrite || existing.isNone) &&
      (schema.map (fun tc => xlSheetName env.case schema caseSpace tc.1)).all (okSheetName kind) &&
      decide ((schema.map (fun tc => env.case.lower (xlSheetName env.case schema caseSpace tc.1))).Nodup) then
    writeAll (fun tc => xlSheetName env.case schema caseSpace tc.1)
      (fun tc => (PyDict.get? dat tc.1).bind (xlTable env cf kind tc.1 tc.2)) schema []
  else none

/-! ### Reading -/

/-- Is no cell stored in the row. -/
def blankRow (row : List Cell) : Bool := row.all (fun x => decide (x = .none))

/-- The number of the last row with a stored cell, counted from 1; 0 for an empty sheet. -/
def Grid.lastRow (g : Grid) : Nat := (g.reverse.dropWhile blankRow).length

/-- The number of rows before the first row with a stored cell. -/
def Grid.topBlank (g : Grid) : Nat := (g.takeWhile blankRow).length

/-- The number of the last column with a stored cell, counted from 1. -/
def Grid.lastCol (g : Grid) : Nat :=
  (g.map (fun row => (row.reverse.dropWhile (fun x => decide (x = .none))).length)).foldr max 0

/-- The loop that prunes trailing empty rows (xls.py:66-70), which starts at row `n - 1` (counted from 0): one more than
the row where it stops. -/
def Grid.prune (g : Grid) : Nat → Nat
  | 0 => 0
  | i + 1 => if blankRow ((g[i]?).getD []) then Grid.prune g i else i + 1

/-- What the reader sees of a sheet: `nrows` after the sheet is wrapped, the length of the columns, and the number of
columns.
* `.xls` (xls.py:37-47): xlrd counts the rows up to the last stored cell.
* `.xlsx` (xls.py:56-79): `sheet.max_row`, `sheet.min_row` and `sheet.max_column` are taken from the stored cells and are
  1 for an empty sheet; `iter_rows` creates the cells it goes through, which changes `min_row` if the pruning goes up to
  the first row; `iter_cols` takes a `max_row` of 0 for a missing argument. -/
def xlDims (kind : XlKind) (prune : Bool) (g : Grid) : Nat × Nat × Nat :=
  match kind with
  | .xls => (g.lastRow, g.lastRow, g.lastCol)
  | .xlsx =>
    let maxRow := max g.lastRow 1
    let minRow := if g.lastRow = 0 then 1 else g.topBlank + 1
    let maxCol := max g.lastCol 1
    if prune then
      let p := g.prune (maxRow - minRow + 1)
      let minRow' := if p = 0 then 1 else minRow
      (maxRow - minRow' + 1, if p = 0 then maxRow else p, maxCol)
    else (maxRow - minRow + 1, maxRow, maxCol)

/-- A cell of a row as the reader sees it: xlrd gives the empty text where no cell is stored, openpyxl `None`. -/
def xlFill (kind : XlKind) (x : Cell) : Cell :=
  match x with
  | .none => if kind = .xls then .str "" else .none
  | x => x

/-- `field == val or (both strings and field.lower() == val.lower())` (xls.py:368-369). -/
def xlHeaderMatches (cenv : CaseEnv) (f : String) (x : Cell) : Bool :=
  match x with
  | .str s => decide (f = s) || decide (cenv.lower f.toList = cenv.lower s.toList)
  | _ => false

/-- `_get_field_indicies` and the checks on its results (xls.py:352-373, 202-211): the column of each field, in order;
`none` if a field is missing or duplicated. -/
def xlColumns (cenv : CaseEnv) (o : XlOpts) (t : String) (fields : List String) (g : Grid) : Option (List Nat) :=
  let d := xlDims o.kind o.prune g
  if o.headers then
    if d.1 ≤ o.offset t then none
    else fields.mapM (fun f =>
      match (List.range d.2.2).filter (fun j => xlHeaderMatches cenv f (xlFill o.kind (g.at (o.offset t) j))) with
      | [j] => some j
      | _ => none)
  else if d.1 = 0 then some (List.range fields.length)
  else if o.kind = .xls ∧ d.1 ≤ o.offset t then none
  else if fields.length ≤ d.2.2 then some (List.range fields.length)
  else none

/-- Is text read as an infinity (xls.py:327-329). -/
def xlTreatInf (cf : IOConf) (o : XlOpts) (t : String) : Bool :=
  o.treatInf && decide (cf.flag = .na) && !decide (t = "parameters" ∧ cf.params ≠ [])

/-- The infinity a text stands for (xls.py:335-336). -/
def xlInfText (cenv : CaseEnv) (x : Cell) : Option XNum :=
  match x with
  | .str s =>
    if cenv.lower s.toList = "inf".toList then some .pinf
    else if cenv.lower s.toList = "-inf".toList then some .ninf
    else none
  | _ => none

/-- A number of a datetime field in an `.xls` file is read as a date (xls.py:343-344). -/
def xlDate (env : XlEnv) (isDate : Bool) (x : Cell) : Cell :=
  match x with
  | .num q => if isDate then (match env.xldate q with
      | some d => .dt d
      | none => .none) else x
  | .nan => if isDate then .none else x
  | x => x

/-- `_read_cell` (xls.py:330-345).  A number and its `int` are the same cell of the model, so `must_be_int` (337-338) has no
effect here. -/
def xlReadCell (env : XlEnv) (cf : IOConf) (dv : Defaults) (o : XlOpts) (t f : String) (x : Cell) : Option Cell :=
  let dt := cf.types.at t f
  if x = .str "" ∧ (dt.map (·.nullable)).getD (decide (dv t f = some .none)) = true then some .none
  else
    match (if xlTreatInf cf o t then xlInfText env.case x else none) with
    | some y => some (.num y)
    | none =>
      (if x = .str "" then readCell env.text cf t f .none else some .none).bind (fun y =>
        if y.numericish then some y
        else readCell env.text cf t f
          (xlDate env ((dt.map (·.datetime)).getD false && decide (o.kind = .xls)) x))

/-- The rows of the sheet of a table as they are read, and what is passed to the `TicDat` constructor
(xls.py:240-259). -/
def xlReadTable (env : XlEnv) (cf : IOConf) (dv : Defaults) (o : XlOpts) (t : String) (c : TabClass) (g : Grid) :
    Option TableIn :=
  if c.fields = [] then none
  else (xlColumns env.case o t c.fields g).bind (fun cols =>
    (((List.range (xlDims o.kind o.prune g).2.1).drop (o.offset t + if o.headers then 1 else 0)).mapM (fun i =>
      mapCells (xlReadCell env cf dv o t) c.fields (cols.map (fun j => xlFill o.kind (g.at i j))))).map (readerTableX c))

/-- One table of a book (xls.py:187-198, 241-259): `some none` if it has no sheet. -/
def xlFind (env : XlEnv) (cf : IOConf) (dv : Defaults) (o : XlOpts) (book : Book) (tc : String × TabClass) :
    Option (Option TableIn) :=
  (sheetOf env.case (PyDict.keys book) tc.1.toList).bind (fun s =>
    match s with
    | none => some none
    | some n => ((PyDict.get? book n).bind (xlReadTable env cf dv o tc.1 tc.2)).map some)

/-- `create_tic_dat` (xls.py:102-168) without generator and generic tables. -/
def xlCreate (env : XlEnv) (cf : IOConf) (dv : Defaults) (policy : DupPolicy) (o : XlOpts)
    (schema : List (String × TabClass)) (book : Book) : Option (PyDict String TabVal) :=
  if sheetNamesDiffer (schema.map (fun tc => tc.1.toList)) then
    ((gatherTables (xlFind env cf dv o book) schema).bind (initDat policy schema)).map (postRead env.text cf.params)
  else none

end Ticdat
