import Verif.Model.Init
/-!
# `copy_tic_dat`
-/
namespace Ticdat

/-- `{f: row[f] for f in row}` of the row object at an address. -/
def fieldsAt (w : World) (a : Nat) : RowVal := ((w.rows[a]?).map RowObj.fields).getD []

/-- What the constructor sees of a table object: a dictionary of rows, or a container of rows (a `TicDatDataList` or a
tuple); rows are `dictish`. -/
def tableIn (w : World) : TabObj → TableIn
  | .dict _ rows _ => .dict (rows.map (fun p => (p.1, .dict (fieldsAt w p.2))))
  | .list _ rows => .seq (rows.map (fun a => .dict (fieldsAt w a)))
  | .tuple rows => .seq (rows.map (fun a => .dict (fieldsAt w a)))

/-- `_keylen` of an element of a container (ticdatfactory.py:29-36). -/
def rowLen : RowIn → Nat
  | .dict d => List.length d
  | .seq vs => vs.length
  | .scalar _ => 1

/-- `good_tic_dat_table` with `row_checking="generous"` (ticdatfactory.py:1164-1258).  It differs from
`_good_tic_dat_table_for_init` for a container that is passed for a table with a primary key (1234-1246). -/
def goodTable (c : TabClass) (x : TableIn) : Bool :=
  if c.pks ≠ [] then
    match x with
    | .dict _ => goodTableForInit c x
    | .seq rows => decide (c.dfs = []) && rows.all (fun r => decide (rowLen r = c.pks.length))
  else goodTableForInit c x

/-- The row object behind a row that the row factory made. -/
def RowObj.ofVal (c : TabClass) (row : RowVal) : RowObj :=
  if c.dfs = [] then .opn row false else .td c.dfs (row.map Prod.snd) false

/-- The rows of a table value, in order. -/
def TabVal.rows : TabVal → List RowVal
  | .keyed d => d.map Prod.snd
  | .plain rows => rows

/-- The table object for a table value whose rows are allocated from address `n` on. -/
def TabVal.obj (c : TabClass) (n : Nat) : TabVal → TabObj
  | .keyed d => .dict c ((d.map Prod.fst).zip (List.range' n d.length)) false
  | .plain rows => .list c (List.range' n rows.length)

/-- Allocate a table: one new row object for each row, then the table (ticdatfactory.py:821-843). -/
def allocTab (w : World) (c : TabClass) (v : TabVal) : World :=
  { w with rows := w.rows ++ v.rows.map (RowObj.ofVal c), tabs := w.tabs ++ [v.obj c w.rows.length] }

/-- Allocate the tables one after the other, and collect the attributes. -/
def allocTabs (w : World) : List (TabClass × (String × TabVal)) → World × PyDict String Nat
  | [] => (w, [])
  | (c, (t, v)) :: rest => ((allocTabs (allocTab w c v) rest).1, (t, w.tabs.length) :: (allocTabs (allocTab w c v) rest).2)

/-- `{t: getattr(tic_dat, t) for t in self.all_tables}`; `none` if an attribute is missing. -/
def datInput (w : World) (o : DatObj) (schema : List (String × TabClass)) : Option (PyDict String TableIn) :=
  schema.mapM (fun tc => ((PyDict.get? o.tabs tc.1).bind (fun a => w.tabs[a]?)).map (fun tab => (tc.1, tableIn w tab)))

/-- `good_tic_dat_object(tic_dat, row_checking="generous")` (ticdatfactory.py:1118-1150). -/
def goodObject (schema : List (String × TabClass)) (input : PyDict String TableIn) : Bool :=
  (schema.zip input).all (fun p => goodTable p.1.2 p.2.2)

/-- `copy_tic_dat(tic_dat)` (ticdatfactory.py:1462-1477); the copy is the last data object of the new heap.  With
`freeze_it` the call `freeze_me` follows (`freezeDat`).  Generator tables, generic tables and foreign key links are not
modelled. -/
def copyDat (policy : DupPolicy) (schema : List (String × TabClass)) (w : World) (d : Nat) : Res :=
  match w.dats[d]? with
  | none => (w, true)
  | some o =>
    match datInput w o schema with
    | none => (w, true)
    | some input =>
      if goodObject schema input then
        match initDat policy schema input with
        | none => (w, true)
        | some vals =>
          ({ (allocTabs w ((schema.map Prod.snd).zip vals)).1 with
              dats := w.dats ++ [⟨(allocTabs w ((schema.map Prod.snd).zip vals)).2, false⟩] }, false)
      else (w, true)

/-- A generator table (ticdatfactory.py:733-740): a function that goes through its source when it is called, and makes a
row of each entry.  The source is a list object of the client, here an address in a heap of lists, or the generator
function of another data object. -/
inductive GenTab where
  | src (addr : Nat)
  | of (g : GenTab)
deriving Repr

/-- `list(dat.t())`: the rows a generator table yields now, with the rows as values; `none` if making a row raises. -/
def GenTab.iterate (c : TabClass) (lists : List (List RowIn)) : GenTab → Option (List RowVal)
  | .src a => ((lists[a]?).getD []).mapM (initRow c)
  | .of g => (g.iterate c lists).bind (fun rows => rows.mapM (fun r => initRow c (.dict r)))

/-- The generator table of a copy (ticdatfactory.py:1474, 840-841): a generator on the generator of the original. -/
def GenTab.copy (g : GenTab) : GenTab := .of g

end Ticdat
