import Verif.Model.PanFiles
/-!
# The types of columns in csv files of `PanDat` objects

`to_csv` writes texts, `read_csv` makes cells of them, column by column.  Which texts pandas takes for missing values, numbers
and Booleans is a parameter.
-/
namespace Ticdat

/-- How pandas reads texts: is it a missing value, which number, which Boolean is it? -/
structure PanCsvLib where
  na : String → Bool
  number : String → Option XNum
  bool : String → Option Bool

/-- The type of a column that was read. -/
inductive ColKind | text | number | bool
deriving DecidableEq

/-- `_dtypes_for_pandas_read(table).get(f) == str` (pandatfactory.py:425-440). -/
def dtypeIsStr (cf : IOConf) (t : String) (c : TabClass) (f : String) : Bool :=
  (match cf.types.at t f with
    | some td => !td.datetime && !td.numberAllowed && td.strings.truthy
    | none => false) ||
  (decide (cf.params ≠ []) && decide (t = "parameters") && (decide (c.pks.head? = some f) || decide (c.dfs.head? = some f)))

/-- The text that `to_csv` writes for a cell (pandatio.py:374). -/
def csvPanText (env : TextEnv) (x : Cell) : String := if x.isNull then "" else env.text x

/-- `read_csv` without a `dtype` for the column: numbers if all texts that are there are numbers, Booleans if all are
Booleans, text otherwise.  Simplification: a column without any text is one of numbers. -/
def inferKind (lib : PanCsvLib) (texts : List String) : ColKind :=
  if texts.all (fun s => lib.na s || (lib.number s).isSome) then .number
  else if texts.all (fun s => lib.na s || (lib.bool s).isSome) then .bool
  else .text

/-- A text of a column with this type. -/
def readAs (lib : PanCsvLib) (k : ColKind) (s : String) : Cell :=
  if lib.na s then .nan
  else
    match k with
    | .text => .str s
    | .number => ((lib.number s).map Cell.num).getD (.str s)
    | .bool => ((lib.bool s).map Cell.bool).getD (.str s)

/-- The type of a column of the file (pandatio.py:308-311). -/
def csvColKind (lib : PanCsvLib) (env : TextEnv) (cf : IOConf) (t : String) (c : TabClass) (w : Frame) (l : Label) : ColKind :=
  match l with
  | .name f =>
    if dtypeIsStr cf t c f then .text
    else inferKind lib (w.rows.map (fun r => csvPanText env ((w.cell r.2 l).getD .none)))
  | _ => inferKind lib (w.rows.map (fun r => csvPanText env ((w.cell r.2 l).getD .none)))

/-- `read_csv` of what `to_csv` has written of `w` (pandatio.py:308-311, 374), without the index. -/
def csvReread (lib : PanCsvLib) (env : TextEnv) (cf : IOConf) (t : String) (c : TabClass) (w : Frame) : Frame :=
  ⟨[], w.cols, w.rows.map (fun r => ([], (w.cols.zip r.2).map (fun p =>
    readAs lib (csvColKind lib env cf t c w p.1) (csvPanText env p.2))))⟩

/-- The same for the tables of a schema. -/
def csvPandas (lib : PanCsvLib) (env : TextEnv) (cf : IOConf) (schema : List (String × TabClass)) (t : String) (w : Frame) :
    Option Frame :=
  (PyDict.get? schema t).map (fun c => csvReread lib env cf t c w)

end Ticdat
