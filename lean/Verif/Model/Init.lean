import Verif.Model.Rows
/-!
# Building a data object from tables of rows (`TicDat.__init__`)

Here tables are values (what a client sees), not heap objects.  DataFrame and Series input, generic tables, generator
tables and foreign key links are not modelled.
-/
namespace Ticdat

/-- A row as a client sees it: the data fields with their cells, in order. -/
abbrev RowVal := PyDict String Cell

/-- A table as a client sees it: with primary keys, or a list of rows. -/
inductive TabVal where
  | keyed (d : PyDict KeyArg RowVal)
  | plain (rows : List RowVal)
deriving DecidableEq, Repr

/-- `len(tbl)`. -/
def TabVal.size : TabVal → Nat
  | .keyed d => List.length d
  | .plain rows => rows.length

/-- What a client passes for a table: something `dictish`, or another container of rows. -/
inductive TableIn where
  | dict (d : PyDict KeyArg RowIn)
  | seq (rows : List RowIn)
deriving Repr

/-- `safe_apply(len)(v)` of an input table (ticdatfactory.py:780). -/
def TableIn.size : TableIn → Nat
  | .dict d => List.length d
  | .seq rows => rows.length

/-- `_keylen` (ticdatfactory.py:29-36). -/
def keyLen : KeyArg → Nat
  | .one _ => 1
  | .tup vs => vs.length

/-- `_good_data_rows` for one row, `row_checking="generous"` (ticdatfactory.py:1259-1278). -/
def goodRow (dfs : List String) : RowIn → Bool
  | .dict d => (PyDict.keys d).all (fun f => decide (f ∈ dfs))
  | .seq vs => decide (vs.length = dfs.length)
  | .scalar _ => decide (dfs.length = 1)

/-- A key of a dictionary, seen as a row, when a dictionary is passed for a table without primary key: iterating it gives
its keys (ticdatfactory.py:1229-1232, 843). -/
def KeyArg.asRow : KeyArg → RowIn
  | .one v => .scalar v
  | .tup vs => .seq vs

/-- `_good_tic_dat_table_for_init` and `good_tic_dat_table` (ticdatfactory.py:1152-1232): rows in a list for a table with a
primary key are checked as if all fields were data fields. -/
def goodTableForInit (c : TabClass) (x : TableIn) : Bool :=
  if c.pks ≠ [] then
    match x with
    | .dict d => d.isEmpty || ((PyDict.keys d).all (fun k => decide (keyLen k = c.pks.length)) &&
        d.all (fun p => goodRow c.dfs p.2))
    | .seq rows => rows.all (goodRow (c.pks ++ c.dfs))
  else
    match x with
    | .dict d => (PyDict.keys d).all (fun k => goodRow c.dfs k.asRow)
    | .seq rows => rows.all (goodRow c.dfs)

/-- `drf(x)`: the row built by the row factory, as a value. -/
def initRow (c : TabClass) (x : RowIn) : Option RowVal := (rowFactory c x).map RowObj.fields

/-- `handle_row_dict` (ticdatfactory.py:816-820): a dictionary becomes the list of its values in field order, with the
number 0 (not the default value) for missing fields. -/
def handleRowDict (fields : List String) : RowIn → RowIn
  | .dict d => .seq (fields.map (fun k => (PyDict.get? d k).getD Cell.zero))
  | r => r

/-- `r if not containerish(r) else (r[0] if pklen == 1 else tuple(r[:pklen]))` (ticdatfactory.py:823-824). -/
def splitKey (n : Nat) : RowIn → KeyArg
  | .scalar v => .one v
  | .seq vs => if n = 1 then .one (vs.headD Cell.zero) else .tup (vs.take n)
  | .dict _ => .tup []

/-- `[] if not containerish(r) else r[pklen:]` (ticdatfactory.py:825). -/
def splitData (n : Nat) : RowIn → RowIn
  | .scalar _ => .seq []
  | .seq vs => .seq (vs.drop n)
  | .dict d => .dict d

/-- The `verify` on the keys of a dictionary (ticdatfactory.py:829-832). -/
def keyVerify (n : Nat) : KeyArg → Bool
  | .one _ => decide (n = 1)
  | .tup vs => decide (vs.length = n ∧ n > 1) || decide (n = 1)

/-- One list row of a table with primary key: key and stored row. -/
def initListRow (c : TabClass) (r : RowIn) : Option (KeyArg × RowVal) :=
  (initRow c (splitData c.pks.length (handleRowDict (c.pks ++ c.dfs) r))).map
    (fun row => (splitKey c.pks.length (handleRowDict (c.pks ++ c.dfs) r), row))

/-- One table of `TicDat.__init__` (ticdatfactory.py:785-843); `none` is a raised exception. -/
def initTable (c : TabClass) (x : TableIn) : Option TabVal :=
  if goodTableForInit c x then
    if c.pks ≠ [] then
      match x with
      | .seq rows => (rows.mapM (initListRow c)).map (fun l => .keyed (PyDict.ofList l))
      | .dict d =>
        if (PyDict.keys d).all (keyVerify c.pks.length) then
          (d.mapM (fun p => (initRow c p.2).map (fun row => (p.1, row)))).map (fun l => .keyed (PyDict.ofList l))
        else none
    else
      match x with
      | .seq rows => (rows.mapM (initRow c)).map .plain
      | .dict d => ((PyDict.keys d).mapM (fun k => initRow c k.asRow)).map .plain
  else none

/-- The empty table (ticdatfactory.py:844-851). -/
def emptyTable (c : TabClass) : TabVal := if c.pks ≠ [] then .keyed [] else .plain []

/-- `duplicates_ticdat_init` (ticdatfactory.py:853-861). -/
inductive DupPolicy where
  | ignore
  | warn
  | assert
deriving DecidableEq, Repr

/-- The table named in one entry of the schema: built from the rows passed for it, or empty (ticdatfactory.py:784-851). -/
def initEntry (input : PyDict String TableIn) (tc : String × TabClass) : Option (String × TabVal) :=
  match PyDict.get? input tc.1 with
  | none => some (tc.1, emptyTable tc.2)
  | some x => (initTable tc.2 x).map (fun v => (tc.1, v))

/-- `TicDat(**init_tables)` (ticdatfactory.py:776-861), a `none` result is a raised exception.  The tables are given in
the order of the schema (their processing order has no effect). -/
def initDat (policy : DupPolicy) (schema : List (String × TabClass)) (input : PyDict String TableIn) :
    Option (PyDict String TabVal) :=
  if input.all (fun p => decide (p.1 ∈ schema.map Prod.fst)) then
    match schema.mapM (initEntry input) with
    | none => none
    | some tabs =>
      if policy = .assert && input.any (fun p =>
        decide (p.2.size > ((PyDict.get? tabs p.1).map TabVal.size).getD 0)) then none
      else some tabs
  else none

end Ticdat
