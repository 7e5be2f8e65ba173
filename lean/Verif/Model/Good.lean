import Verif.Model.Copy
import Verif.Model.Frame
/-!
# `good_tic_dat_object`, `good_tic_dat_table`, and `TicDat.__init__` with tables of all kinds

Series arguments are not modelled.
-/
namespace Ticdat

/-- What an attribute of a candidate object, or an argument of `TicDat`, can be: a table of rows, a function that
generates rows, a DataFrame, or something that is neither a container nor callable. -/
inductive AttrVal where
  | tab (x : TableIn)
  | call (rows : List RowIn)
  | frame (v : Frame)
  | other
deriving Repr

/-- The kinds of tables of a schema: generic tables, generator tables (which have no primary key), and others. -/
inductive TabKind where
  | generic
  | generator (c : TabClass)
  | plain (c : TabClass)
deriving Repr

/-- What `row_checking="strict"` asks of a row (ticdatfactory.py:1279-1284). -/
def strictRow (dfs : List String) : RowIn → Bool
  | .dict d => (PyDict.keys d).all (fun f => decide (f ∈ dfs)) && dfs.all (fun f => decide (f ∈ PyDict.keys d))
  | .seq _ => false
  | .scalar _ => false

/-- `_good_data_rows` (ticdatfactory.py:1258-1285). -/
def goodRows (strict : Bool) (dfs : List String) (rows : List RowIn) : Bool :=
  rows.all (goodRow dfs) && (!strict || rows.all (strictRow dfs))

/-- The elements a container yields: a dictionary yields its keys. -/
def TableIn.iter : TableIn → List RowIn
  | .dict d => (PyDict.keys d).map KeyArg.asRow
  | .seq rows => rows

/-- `good_tic_dat_table` for a table with a primary key that is not a DataFrame (ticdatfactory.py:1221-1228, 1234-1257). -/
def goodKeyed (strict : Bool) (c : TabClass) : AttrVal → Bool
  | .tab (.dict d) => d.isEmpty || ((PyDict.keys d).all (fun k => decide (keyLen k = c.pks.length)) &&
      goodRows strict c.dfs (d.map Prod.snd))
  | .tab (.seq rows) => !strict && (decide (c.dfs = []) && rows.all (fun r => decide (rowLen r = c.pks.length)))
  | _ => false

/-- `good_tic_dat_table` for a table without primary key that is not a DataFrame (ticdatfactory.py:1229-1232); `none` is a
raised exception. -/
def goodRowsTable (strict : Bool) (dfs : List String) : AttrVal → Option Bool
  | .tab x => some (goodRows strict dfs x.iter)
  | _ => none

/-- `good_tic_dat_table` (ticdatfactory.py:1164-1233) for a name of the schema; `none` is a raised exception. -/
def goodTicDatTable (strict : Bool) : TabKind → AttrVal → Option Bool
  | .generator c, .tab (.seq rows) => some (goodRows strict c.dfs rows)
  | .generator c, .call rows => some (goodRows strict c.dfs rows)
  | .generator _, _ => none
  | .generic, .frame _ => some true
  | .generic, a => goodRowsTable strict [] a
  | .plain c, .frame v => some (!strict && frameGood c v)
  | .plain c, a => if c.pks ≠ [] then some (goodKeyed strict c a) else goodRowsTable strict c.dfs a

/-- `isinstance(x, DataFrame)`. -/
def AttrVal.isFrame : AttrVal → Bool
  | .frame _ => true
  | _ => false

/-- `t in self.generic_tables`. -/
def TabKind.isGeneric : TabKind → Bool
  | .generic => true
  | _ => false

/-- The loop of `good_tic_dat_object` (ticdatfactory.py:1133-1150); `rtn` is the result so far.  The tables are visited in
an arbitrary order. -/
def goodLoop (strict : Bool) (obj : PyDict String AttrVal) : Bool → List (String × TabKind) → Option Bool
  | rtn, [] => some rtn
  | rtn, (t, k) :: rest =>
    match PyDict.get? obj t with
    | none => some false
    | some a =>
      if a.isFrame != k.isGeneric then some false
      else if rtn then (goodTicDatTable strict k a).bind (fun b => goodLoop strict obj b rest)
      else goodLoop strict obj false rest

/-- `good_tic_dat_object(data_obj, row_checking=..)` (ticdatfactory.py:1118-1150). -/
def goodTicDatObject (strict : Bool) (kinds : List (String × TabKind)) (obj : PyDict String AttrVal) : Option Bool :=
  goodLoop strict obj true kinds

/-! ## `TicDat.__init__` with tables of all kinds -/

/-- A table of a data object: with rows, a generator function (which rows it was given and the class), or a DataFrame. -/
inductive OutTab where
  | tab (v : TabVal)
  | gen (c : TabClass) (rows : List RowIn)
  | frame (v : Frame)
deriving Repr

/-- `safe_apply(len)(v)` of an argument (ticdatfactory.py:780). -/
def AttrVal.len : AttrVal → Option Nat
  | .tab x => some x.size
  | .frame v => some v.rows.length
  | .call _ => none
  | .other => none

/-- `safe_apply(len)(getattr(self, k))` (ticdatfactory.py:853): a generator function has no length. -/
def OutTab.len : OutTab → Option Nat
  | .tab v => some v.size
  | .gen _ _ => none
  | .frame v => some v.rows.length

/-- One table of `TicDat.__init__` (ticdatfactory.py:782-843).  `mk` is `DataFrame(..)` for a generic table. -/
def initAttr (mk : AttrVal → Option Frame) : TabKind → AttrVal → Option OutTab
  | .generic, a => (mk a).map .frame
  | .generator c, .tab (.seq rows) => if goodRows false c.dfs rows then some (.gen c rows) else none
  | .generator c, .call rows => if goodRows false c.dfs rows then some (.gen c rows) else none
  | .generator _, _ => none
  | .plain c, .tab x => (initTable c x).map .tab
  | .plain c, .frame v => (initFrame c v).map .tab
  | .plain _, _ => none

/-- A table for which nothing was passed (ticdatfactory.py:844-851). -/
def emptyAttr : TabKind → OutTab
  | .generic => .frame ⟨[], [], []⟩
  | .generator c => .gen c []
  | .plain c => .tab (emptyTable c)

/-- The table named in one entry of the schema (ticdatfactory.py:782-851). -/
def initKindEntry (mk : AttrVal → Option Frame) (input : PyDict String AttrVal) (tk : String × TabKind) : Option (String × OutTab) :=
  match PyDict.get? input tk.1 with
  | none => some (tk.1, emptyAttr tk.2)
  | some a => (initAttr mk tk.2 a).map (fun v => (tk.1, v))

/-- `k for k, v in lens.items() for l in [..] if v > (l or 0)` (ticdatfactory.py:853-854) for one argument. -/
def lostRows (tabs : PyDict String OutTab) (p : String × AttrVal) : Bool :=
  match p.2.len with
  | none => false
  | some n => decide (n > (((PyDict.get? tabs p.1).bind OutTab.len).getD 0))

/-- `TicDat(**init_tables)` (ticdatfactory.py:776-861) for a schema with tables of all kinds; `none` is a raised exception.
Foreign key links are not modelled. -/
def initKinds (mk : AttrVal → Option Frame) (policy : DupPolicy) (kinds : List (String × TabKind)) (input : PyDict String AttrVal) :
    Option (PyDict String OutTab) :=
  if input.all (fun p => decide (p.1 ∈ kinds.map Prod.fst)) then
    match kinds.mapM (initKindEntry mk input) with
    | none => none
    | some tabs => if policy = .assert && input.any (lostRows tabs) then none else some tabs
  else none

end Ticdat
