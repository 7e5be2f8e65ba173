import Verif.Model.Cell
import Verif.Lemmas.Dict
/-!
# Row construction, table objects, data objects, freezing and copying

Python objects live in a heap: rows and tables have addresses, so that aliasing, copying and freezing can be told
apart from equality of contents.
-/
namespace Ticdat

/-- What a client passes as a key: a scalar (strings are scalars, utils.py:948-950) or a tuple. -/
inductive KeyArg where
  | one (v : Cell)
  | tup (vs : List Cell)
deriving DecidableEq, Repr

/-- What a client passes as a row: something `dictish` (a `dict`, another row), a `containerish` sequence, or a
scalar (utils.py:942-954). -/
inductive RowIn where
  | dict (d : PyDict String Cell)
  | seq (vs : List Cell)
  | scalar (v : Cell)
deriving DecidableEq, Repr

/-- The class of a table: its primary key fields, its data fields and the default values
(ticdatfactory.py:692-706: the arguments captured by `ticdattablefactory` and `datarowfactory`). -/
structure TabClass where
  pks : List String
  dfs : List String
  defaults : PyDict String Cell
deriving DecidableEq, Repr

/-- `keylen = len(primarykey)` (ticdatfactory.py:700). -/
def TabClass.pkLen (c : TabClass) : Nat := c.pks.length

/-- The number zero. -/
def Cell.zero : Cell := .num (.fin 0)

/-- A row object.  `td` is a `TicDatDataRow` (utils.py:1062-1107): its `_data` list is aligned with the data fields of
its class.  `opn` is the `FreezeableDict` that stands for a row of a table without data fields (utils.py:1054-1058): it
is an ordinary dictionary until it is frozen.  `plain` is any other dictionary object, which cannot be frozen (a client
can put one into a table with `dict.update`, which is not overridden to convert rows). -/
inductive RowObj where
  | td (dfs : List String) (data : List Cell) (frozen : Bool)
  | opn (fields : PyDict String Cell) (frozen : Bool)
  | plain (fields : PyDict String Cell)
deriving DecidableEq, Repr

/-- `{f: row[f] for f in row}`. -/
def RowObj.fields : RowObj → PyDict String Cell
  | .td dfs data _ => dfs.zip data
  | .opn d _ => d
  | .plain d => d

/-- `getattr(row, "_dataFrozen", False)`. -/
def RowObj.frozen : RowObj → Bool
  | .td _ _ b => b
  | .opn _ b => b
  | .plain _ => false

/-- `self._data[fieldtoindex[f]] = v` (utils.py:1060, 1092). -/
def setField (dfs : List String) (data : List Cell) (f : String) (v : Cell) : List Cell :=
  data.set (dfs.idxOf f) v

/-- `rowfactory(x)` (utils.py:1050-1084, `td_row_factory`): `none` is a raised `TicDatError`. -/
def rowFactory (c : TabClass) (x : RowIn) : Option RowObj :=
  if c.dfs = [] then
    -- makefreezeabledict: containerish(x) and len(x) == 0
    match x with
    | .dict [] => some (.opn [] false)
    | .seq [] => some (.opn [] false)
    | _ => none
  else
    let zeros := List.replicate c.dfs.length Cell.zero
    match x with
    | .dict d =>
      if d.all (fun p => decide (p.1 ∈ c.dfs)) then
        let base := c.dfs.foldl (fun acc f =>
          match PyDict.get? c.defaults f with
          | some v => setField c.dfs acc f v
          | none => acc) zeros
        some (.td c.dfs (d.foldl (fun acc p => setField c.dfs acc p.1 p.2) base) false)
      else none
    | .seq vs => if vs.length = c.dfs.length then some (.td c.dfs vs false) else none
    | .scalar v => if c.dfs.length = 1 then some (.td c.dfs (zeros.set 0 v) false) else none

/-- `row[f] = v`: `TicDatDataRow.__setitem__` (utils.py:1087-1092), `FreezeableDict.__setitem__` (utils.py:990-993) or a
plain dictionary.  `none` is a raised exception. -/
def RowObj.setItem (r : RowObj) (f : String) (v : Cell) : Option RowObj :=
  match r with
  | .td dfs data frozen =>
    if f ∈ dfs then
      if frozen then none else some (.td dfs (setField dfs data f v) false)
    else none
  | .opn d frozen => if frozen then none else some (.opn (PyDict.set d f v) false)
  | .plain d => some (.plain (PyDict.set d f v))

/-- A table object.  `dict` is a `TicDatDict` (ticdatfactory.py:703-717) from keys to row addresses, `list` a
`TicDatDataList` (718-732), `tuple` the tuple that replaces a list when the data object is frozen (757). -/
inductive TabObj where
  | dict (cls : TabClass) (rows : PyDict KeyArg Nat) (frozen : Bool)
  | list (cls : TabClass) (rows : List Nat)
  | tuple (rows : List Nat)
deriving DecidableEq, Repr

/-- The addresses of the rows of a table, in order. -/
def TabObj.addrs : TabObj → List Nat
  | .dict _ rows _ => rows.map Prod.snd
  | .list _ rows => rows
  | .tuple rows => rows

/-- `TicDatDict.__setitem__`'s check (ticdatfactory.py:708-711):
`containerish(key) == (keylen > 1) and (keylen == 1 or keylen == len(key))`. -/
def keyOK (pkLen : Nat) : KeyArg → Bool
  | .one _ => !decide (pkLen > 1) && decide (pkLen = 1)
  | .tup vs => decide (pkLen > 1) && (decide (pkLen = 1) || decide (pkLen = vs.length))

/-- A data object: the attributes for its tables, and `_isFrozen` (ticdatfactory.py:741-859). -/
structure DatObj where
  tabs : PyDict String Nat
  frozen : Bool
deriving DecidableEq, Repr

/-- The heap: rows, tables and data objects, by address. -/
structure World where
  rows : List RowObj
  tabs : List TabObj
  dats : List DatObj
deriving DecidableEq, Repr

namespace World

/-- Allocate a row. -/
def newRow (w : World) (r : RowObj) : World := { w with rows := w.rows ++ [r] }

/-- Replace a row object. -/
def putRow (w : World) (a : Nat) (r : RowObj) : World := { w with rows := w.rows.set a r }

/-- Replace a table object. -/
def putTab (w : World) (a : Nat) (t : TabObj) : World := { w with tabs := w.tabs.set a t }

/-- Allocate a table. -/
def newTab (w : World) (t : TabObj) : World := { w with tabs := w.tabs ++ [t] }

/-- Replace a data object. -/
def putDat (w : World) (d : Nat) (o : DatObj) : World := { w with dats := w.dats.set d o }

end World

/-- Operations on a table object. -/
inductive TabOp where
  /-- `tbl[key] = row` -/
  | setItem (k : KeyArg) (x : RowIn)
  /-- `tbl[key]` -/
  | getItem (k : KeyArg)
  /-- `del tbl[key]` -/
  | delItem (k : KeyArg)
  /-- `tbl.pop(key)` -/
  | pop (k : KeyArg)
  /-- `tbl.update({key: obj})` for an existing object -/
  | update (k : KeyArg) (a : Nat)
  /-- `tbl.setdefault(key, obj)` -/
  | setdefault (k : KeyArg) (a : Nat)
  /-- `tbl |= {key: obj}` -/
  | ior (k : KeyArg) (a : Nat)
  /-- `tbl.clear()` on a keyed table; on a list table it is a sequence of `del tbl[-1]` -/
  | clear
  /-- `tbl.popitem()` -/
  | popitem
  /-- `tbl.insert(i, row)` on a list table; `append(row)` is `insert(len(tbl), row)` -/
  | insert (i : Nat) (x : RowIn)
  /-- `tbl[i] = row` on a list table -/
  | setAt (i : Nat) (x : RowIn)
  /-- `del tbl[i]` on a list table -/
  | delAt (i : Nat)
deriving DecidableEq, Repr

/-- The result of an operation: the new heap and whether an exception was raised. -/
abbrev Res := World × Bool

/-- `TicDatDict.__setitem__` (ticdatfactory.py:707-712) with `FreezeableDict.__setitem__` (utils.py:990-993): check the
key, build a fresh row with the row factory, refuse if frozen, store. -/
def tabSetItem (w : World) (a : Nat) (cls : TabClass) (rows : PyDict KeyArg Nat) (frozen : Bool) (k : KeyArg)
    (x : RowIn) : Res :=
  if keyOK cls.pkLen k then
    match rowFactory cls x with
    | none => (w, true)
    | some r =>
      if frozen then (w, true)
      else (((w.newRow r).putTab a (.dict cls (PyDict.set rows k w.rows.length) false)), false)
  else (w, true)

/-- One operation on the table object at address `a`.

`TicDatDict` (ticdatfactory.py:703-717) inherits from `FreezeableDict` (utils.py:985-1006), which overrides
`__setitem__`, `__delitem__`, `update` and `pop` only: `setdefault`, `|=`, `clear` and `popitem` are those of `dict` and
do not look at `_dataFrozen`; `update`, `setdefault` and `|=` of `dict` store the value as it is.  `__getitem__`
(713-716) inserts a default row for a missing key unless frozen.  `TicDatDataList` is ticdatfactory.py:718-732.
Operations of the wrong kind of table raise. -/
def tabOp (w : World) (a : Nat) (op : TabOp) : Res :=
  match w.tabs[a]? with
  | none => (w, true)
  | some (.dict cls rows frozen) =>
    match op with
    | .setItem k x => tabSetItem w a cls rows frozen k x
    | .getItem k =>
      if PyDict.has rows k then (w, false)
      else if frozen then (w, true)
      else tabSetItem w a cls rows frozen k (.dict [])
    | .delItem k =>
      if frozen then (w, true)
      else if PyDict.has rows k then (w.putTab a (.dict cls (PyDict.erase rows k) frozen), false)
      else (w, true)
    | .pop k =>
      if frozen then (w, true)
      else if PyDict.has rows k then (w.putTab a (.dict cls (PyDict.erase rows k) frozen), false)
      else (w, true)
    | .update k b =>
      if frozen then (w, true)
      else if b < w.rows.length then (w.putTab a (.dict cls (PyDict.set rows k b) frozen), false)
      else (w, true)
    | .ior k b =>
      if b < w.rows.length then (w.putTab a (.dict cls (PyDict.set rows k b) frozen), false) else (w, true)
    | .setdefault k b =>
      if PyDict.has rows k then (w, false)
      else if b < w.rows.length then (w.putTab a (.dict cls (PyDict.set rows k b) frozen), false)
      else (w, true)
    | .clear => (w.putTab a (.dict cls [] frozen), false)
    | .popitem => if rows = [] then (w, true) else (w.putTab a (.dict cls rows.dropLast frozen), false)
    | _ => (w, true)
  | some (.list cls rows) =>
    match op with
    | .insert i x =>
      match rowFactory cls x with
      | none => (w, true)
      | some r =>
        let j := min i rows.length
        (((w.newRow r).putTab a (.list cls (rows.take j ++ w.rows.length :: rows.drop j))), false)
    | .setAt i x =>
      match rowFactory cls x with
      | none => (w, true)
      | some r =>
        if i < rows.length then ((w.newRow r).putTab a (.list cls (rows.set i w.rows.length)), false)
        else (w, true)
    | .delAt i => if i < rows.length then (w.putTab a (.list cls (rows.eraseIdx i)), false) else (w, true)
    | _ => (w, true)
  | some (.tuple _) => (w, true)

/-- `row[f] = v` on the row object at address `a`. -/
def rowOp (w : World) (a : Nat) (f : String) (v : Cell) : Res :=
  match w.rows[a]? with
  | none => (w, true)
  | some r =>
    match r.setItem f v with
    | none => (w, true)
    | some r' => (w.putRow a r', false)

/-- `v._dataFrozen = True; v._attributesFrozen = True` for a row that is not frozen; for one that is,
`assert (len(v) == 0) and v._attributesFrozen` (ticdatfactory.py:748-752).  A plain dictionary has no attributes. -/
def freezeRow (w : World) (a : Nat) : Res :=
  match w.rows[a]? with
  | some (.td dfs data false) => (w.putRow a (.td dfs data true), false)
  | some (.td _ data true) => (w, !decide (data = []))
  | some (.opn d false) => (w.putRow a (.opn d true), false)
  | some (.opn d true) => (w, !decide (d = []))
  | _ => (w, true)

/-- The loop over the rows of a table; an exception stops it. -/
def freezeRows : World → List Nat → Res
  | w, [] => (w, false)
  | w, a :: rest =>
    match freezeRow w a with
    | (w', true) => (w', true)
    | (w', false) => freezeRows w' rest

/-- One table of `_freeze` (ticdatfactory.py:745-758): freeze its rows, then the dictionary, or replace the list by a
tuple. -/
def freezeTab (w : World) (d : Nat) (t : String) : Res :=
  match w.dats[d]? with
  | none => (w, true)
  | some o =>
    match PyDict.get? o.tabs t with
    | none => (w, true)
    | some a =>
      match w.tabs[a]? with
      | none => (w, true)
      | some tab =>
        match freezeRows w tab.addrs with
        | (w', true) => (w', true)
        | (w', false) =>
          match tab with
          | .dict cls rows _ => (w'.putTab a (.dict cls rows true), false)
          | .list _ rows | .tuple rows =>
            ((w'.newTab (.tuple rows)).putDat d ⟨PyDict.set o.tabs t w'.tabs.length, o.frozen⟩, false)

/-- The loop over the tables in `_freeze`. -/
def freezeTabs : World → Nat → List String → Res
  | w, _, [] => (w, false)
  | w, d, t :: rest =>
    match freezeTab w d t with
    | (w', true) => (w', true)
    | (w', false) => freezeTabs w' d rest

/-- `freeze_me` / `_freeze` (ticdatfactory.py:742-764, 1678-1689).  `order` is the (arbitrary) iteration order of the
set of tables.  The loop over `getattr(self, "_allDataDicts", ())` does nothing: the attribute is called
`_all_data_dicts` (780).  Generator tables and generic tables are not modelled. -/
def freezeDat (w : World) (d : Nat) (order : List String) : Res :=
  match w.dats[d]? with
  | none => (w, true)
  | some o =>
    if o.frozen then (w, false)
    else
      match freezeTabs w d order with
      | (w', true) => (w', true)
      | (w', false) =>
        match w'.dats[d]? with
        | none => (w', true)
        | some o' => (w'.putDat d ⟨o'.tabs, true⟩, false)

/-- Everything a client can do to the heap, as far as it is modelled. -/
inductive Op where
  /-- an operation on a table object -/
  | tab (a : Nat) (op : TabOp)
  /-- `row[f] = v` -/
  | row (a : Nat) (f : String) (v : Cell)
  /-- a new dictionary object of the client's own -/
  | newPlain (fields : PyDict String Cell)
  /-- `setattr(dat, t, tbl)` for an existing table object -/
  | setAttr (d : Nat) (t : String) (a : Nat)
  /-- `delattr(dat, t)` -/
  | delAttr (d : Nat) (t : String)
  /-- `tdf.freeze_me(dat)` -/
  | freeze (d : Nat) (order : List String)
deriving DecidableEq, Repr

/-- One step.  `__setattr__` and `__delattr__` of a data object are guarded by `_isFrozen` (utils.py:972-982,
`freezable_factory`). -/
def step (w : World) (op : Op) : Res :=
  match op with
  | .tab a o => tabOp w a o
  | .row a f v => rowOp w a f v
  | .newPlain fields => (w.newRow (.plain fields), false)
  | .setAttr d t a =>
    match w.dats[d]? with
    | none => (w, true)
    | some o =>
      if o.frozen then (w, true)
      else if a < w.tabs.length then (w.putDat d ⟨PyDict.set o.tabs t a, false⟩, false)
      else (w, true)
  | .delAttr d t =>
    match w.dats[d]? with
    | none => (w, true)
    | some o =>
      if o.frozen then (w, true)
      else if PyDict.has o.tabs t then (w.putDat d ⟨PyDict.erase o.tabs t, false⟩, false)
      else (w, true)
  | .freeze d order => freezeDat w d order

/-- A history of steps. -/
def run (w : World) (ops : List Op) : World := ops.foldl (fun w op => (step w op).1) w

/-- The dictionary methods that `FreezeableDict` does not override (utils.py:985-1006). -/
def TabOp.unguarded : TabOp → Bool
  | .setdefault _ _ => true
  | .ior _ _ => true
  | .clear => true
  | .popitem => true
  | _ => false

/-- An operation through a dictionary method that `FreezeableDict` does not override. -/
def Op.unguarded : Op → Bool
  | .tab _ o => o.unguarded
  | _ => false

/-! ## Contents -/

/-- The contents of a table: keys (or none, for list tables) and rows. -/
abbrev TabView := List (Option KeyArg × Option (PyDict String Cell))

set_option synthInstance.maxHeartbeats 200000 in
instance : DecidableEq TabView := by unfold TabView PyDict; infer_instance

/-- What a client sees of a row at an address. -/
def viewRow (w : World) (a : Nat) : Option (PyDict String Cell) := (w.rows[a]?).map RowObj.fields

/-- What a client sees of a table object. -/
def viewTab (w : World) : TabObj → TabView
  | .dict _ rows _ => rows.map (fun p => (some p.1, viewRow w p.2))
  | .list _ rows => rows.map (fun a => (none, viewRow w a))
  | .tuple rows => rows.map (fun a => (none, viewRow w a))

/-- What a client sees of the table object at an address. -/
def viewTabAt (w : World) (a : Nat) : Option TabView := (w.tabs[a]?).map (viewTab w)

/-- What a client sees of a data object: for each table of the schema, the contents of the attribute. -/
def viewDat (ts : List String) (w : World) (d : Nat) : Option (List (Option TabView)) :=
  (w.dats[d]?).map (fun o => ts.map (fun t => (PyDict.get? o.tabs t).bind (viewTabAt w)))

end Ticdat
