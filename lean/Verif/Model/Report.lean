import Verif.Model.PanFK
import Verif.Model.PanTypes
import Verif.Model.RowPred
/-!
# The report of integrity errors

`_integrity_solve` (utils.py:340-422), which `standard_main --errors` writes, and `PanDatFactory.find_duplicates`.  Simplifications: the
clone of the factory is not modelled (C35, C41), the report starts from the tables, foreign keys, data types and predicates of the clone;
generic tables are excluded (`schema()` has no pair for them, and the unpacking in line 358 raises).
-/
namespace Ticdat

/-- A DataFrame without its index: the columns and the rows. -/
structure PTable where
  cols : List String
  rows : List (List Cell)
deriving Repr

/-- A row by the names of the columns. -/
def PTable.rowAt (v : PTable) (cells : List Cell) : PRow Cell := fun f => (v.cols.zip cells).lookup f

/-- The rows of all tables by the names of the columns. -/
def panRowsOf (tabs : String → PTable) : PanDB Cell := fun t => (tabs t).rows.map (tabs t).rowAt

/-- `df.duplicated(fields, keep="first")` (pandatfactory.py:1558): is there an earlier row with these values?  Simplification: `1` and `True`
are not the same value. -/
def dupFlags (fs : List String) : List (PRow Cell) → List (List (Option Cell)) → List Bool
  | [], _ => []
  | r :: rs, seen => decide (fs.map r ∈ seen) :: dupFlags fs rs (fs.map r :: seen)

/-- `find_duplicates` (pandatfactory.py:1536-1562), as flags. -/
def panFindDups (s : Schema) (db : PanDB Cell) : List (String × List Bool) :=
  (PyDict.keys s).filterMap (fun t =>
    if s.pks t = [] then none
    else
      let fl := dupFlags (s.pks t) (db t) []
      if fl.any id then some (t, fl) else none)

/-- `df[flags]`. -/
def pickFlagged {A : Type} : List Bool → List A → List A
  | true :: fl, r :: rs => r :: pickFlagged fl rs
  | false :: fl, _ :: rs => pickFlagged fl rs
  | _, _ => []

/-- `_id_flds[table]` (utils.py:358). -/
def idFields (s : Schema) (t : String) : List String := if s.pks t = [] then s.dfs t else s.pks t

/-- `longest_id_flds` (utils.py:359). -/
def longestId (s : Schema) : Nat := (PyDict.keys s).foldl (fun n t => max n (idFields s t).length) 0

/-- What `add_error_row` adds (utils.py:372-376). -/
def errorRow (s : Schema) (t : String) (row : List Cell) : List Cell :=
  row.take (idFields s t).length ++ List.replicate (longestId s - (idFields s t).length) .none

/-- The four tables of the report (utils.py:361-365). -/
structure Report where
  duplicates : List (String × List Cell)
  dataTypes : List (String × String × List Cell)
  foreignKeys : List (FK × List Cell)
  dataRows : List (String × PName × Cell × List Cell)
deriving DecidableEq

/-- `err_cnt` (utils.py:580). -/
def Report.count (r : Report) : Nat := r.duplicates.length + r.dataTypes.length + r.foreignKeys.length + r.dataRows.length

/-- The row of the failures DataFrame for a bad row: with an "Error Message" column if the predicate gives messages
(pandatfactory.py:1386-1395). -/
def failureRow (cells : List Cell) : Option String → List Cell
  | none => cells
  | some m => cells ++ [.str m]

/-- The report of one entry of the row failures (utils.py:403-418). -/
def rowReport (s : Schema) (tabs : String → PTable) (key : String × PName) : RowFail Nat → Option (String × PName × Cell × List Cell)
  | .star msg => some (key.1, key.2, .str msg, List.replicate (longestId s) .none)
  | .row i msg =>
    ((tabs key.1).rows[i]?).map (fun cells =>
      let row := failureRow cells msg
      let m := if (s.pks key.1 ++ s.dfs key.1).length < row.length then row.getLast?.getD .none else .none
      (key.1, key.2, m, errorRow s key.1 row))

/-- `_integrity_solve` (utils.py:340-422); `none` is a raised exception (line 359
raises without tables).  `handled`: `find_data_row_failures` is called with its default `exception_handling="__debug__"`
(pandatfactory.py:1248), which handles exceptions as failures only when Python runs with `-O`. -/
def integrityReport {K D : Type} (parses : Cell → Bool) (handled : Bool) (env : PredEnv K D) (s : Schema) (dts : DataTypes)
    (fks : List FK) (preds : List ((String × PName) × RowPred Cell K)) (tabs : String → PTable) : Option Report := do
  if PyDict.keys s = [] then failure
  let db := panRowsOf tabs
  let dups := (panFindDups s db).flatMap (fun e => (pickFlagged e.2 (tabs e.1).rows).map (fun r => (e.1, errorRow s e.1 r)))
  let types ← panFindTypes parses s dts db none
  let dataTypes := types.flatMap (fun e => (pickFlagged e.2 (tabs e.1.1).rows).map (fun r => (e.1.1, e.1.2, errorRow s e.1.1 r)))
  let fkRows := (panFindRows db none fks 0).flatMap (fun e =>
    (pickFlagged e.2 (tabs e.1.native).rows).map (fun r => (e.1, errorRow s e.1.native r)))
  let rowFails ← panRowFailures handled env preds db none
  let dataRows := rowFails.flatMap (fun e => e.2.filterMap (rowReport s tabs e.1))
  return ⟨dups, dataTypes, fkRows, dataRows⟩

end Ticdat
