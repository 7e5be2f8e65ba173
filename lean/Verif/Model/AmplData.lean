import Verif.Model.Frame
import Verif.Model.Factory
/-!
# Exchanging data with AMPL

`copy_from_ampl_variables` and `copy_to_ampl` of both classes.  An `amplpy` variable is the number of its index entries and
its values; an `amplpy.DataFrame` is what it has been given.  What AMPL itself does is not modelled.  Foreign key links
are not enabled.
-/
namespace Ticdat

/-! ## From AMPL -/

/-- One entry of the argument `ampl_variables` of `copy_from_ampl_variables` (ticdatfactory.py:1478-1513): the key
`(table, field)` (`none` stands for `None`) and an `amplpy` variable, with or without a filter.  `values` are the pairs of
`getValues().toDict()`: index entries and value; `levels` is the number of index entries, at least 1 (variables without
index are not modelled). -/
structure AmplEntry where
  table : String
  field : Option String
  levels : Nat
  values : List (List Cell × Cell)
  filter : Option (Cell → Bool)

/-- `f`, if it is truthy (ticdatfactory.py:1518, 1525). -/
def AmplEntry.named (e : AmplEntry) : Option String :=
  match e.field with
  | some f => if f = "" then none else some f
  | none => none

/-- `filter_` (ticdatfactory.py:1511-1513). -/
def AmplEntry.passes (e : AmplEntry) (x : Cell) : Bool :=
  match e.filter with
  | some p => p x
  | none => !x.pyEq (.num (.fin 0))

/-- The values that pass the filter (ticdatfactory.py:1519). -/
def AmplEntry.kept (e : AmplEntry) : List (List Cell × Cell) := e.values.filter (fun p => e.passes p.2)

/-- The check of one entry (ticdatfactory.py:1505-1508). -/
def amplTarget (schema : List (String × TabClass)) (e : AmplEntry) : Bool :=
  match PyDict.get? schema e.table with
  | some c => decide (c.pks ≠ []) &&
    (match e.named with
     | some f => decide (f ∈ c.dfs)
     | none => true)
  | none => false

/-- Naming the index (ticdatfactory.py:1520-1524): `Index.rename` takes one name for an index of one level,
`MultiIndex.from_tuples` takes as many names as the tuples have entries, and any number if there are no tuples. -/
def amplIndex (pks : List String) (levels : Nat) (rows : List (List Cell × Cell)) : Bool :=
  if pks.length = 1 then decide (levels = 1) else decide (rows = []) || decide (levels = pks.length)

/-- The DataFrame (ticdatfactory.py:1515-1524). -/
def amplFrame (pks : List String) (f : String) (rows : List (List Cell × Cell)) : Frame :=
  ⟨pks, [.name f], rows.map (fun p => (p.1, [p.2]))⟩

/-- `rtn.t[k]` (ticdatfactory.py:713-716): a missing key gets a default row, after the check of the key (708-711). -/
def amplRow (c : TabClass) (d : PyDict KeyArg RowVal) (k : KeyArg) : Option RowVal :=
  match PyDict.get? d k with
  | some row => some row
  | none => if keyOK c.pkLen k then initRow c (.dict []) else none

/-- `rtn.t[k][f] = x` (ticdatfactory.py:1528). -/
def amplPut (c : TabClass) (f : String) (d : PyDict KeyArg RowVal) (k : KeyArg) (x : Cell) : Option (PyDict KeyArg RowVal) :=
  (amplRow c d k).map (fun row => PyDict.set d k (PyDict.set row f x))

/-- `if k not in rtn.t: rtn.t[k] = {}` (ticdatfactory.py:1533-1534). -/
def amplTouch (c : TabClass) (d : PyDict KeyArg RowVal) (k : KeyArg) : Option (PyDict KeyArg RowVal) :=
  if PyDict.has d k then some d else (amplRow c d k).map (fun row => PyDict.set d k row)

/-- The class of the table in `TicDatFactory(**{t:[pks, ["ticdat_dummy"]]})` (ticdatfactory.py:1530-1531). -/
def dummyClass (pks : List String) : TabClass := ⟨pks, ["ticdat_dummy"], [("ticdat_dummy", .num (.fin 0))]⟩

/-- `TicDat(**{t:df})`, and its table `t` (ticdatfactory.py:1526, 1530-1531). -/
def amplBuild (policy : DupPolicy) (schema : List (String × TabClass)) (t : String) (v : Frame) : Option (PyDict KeyArg RowVal) :=
  match (initFrames policy schema [(t, v)]).bind (fun tabs => PyDict.get? tabs t) with
  | some (.keyed items) => some items
  | _ => none

/-- One pass of the loop of `copy_from_ampl_variables` (ticdatfactory.py:1510-1534), for a table with class `c` whose
content is `d`.  The name of the table is one that a factory accepts, so the factory for the primary key alone (1530) only
checks the field names. -/
def amplTable (case : CaseEnv) (policy : DupPolicy) (schema : List (String × TabClass)) (c : TabClass) (e : AmplEntry)
    (d : PyDict KeyArg RowVal) : Option (PyDict KeyArg RowVal) :=
  if e.values = [] then some d
  else if amplIndex c.pks e.levels e.kept then
    match e.named with
    | some f =>
      (amplBuild policy schema e.table (amplFrame c.pks f e.kept)).bind (fun items =>
        items.foldlM (fun d p => (PyDict.get? p.2 f).bind (fun x => amplPut c f d p.1 x)) d)
    | none =>
      if goodDecl case (.fields c.pks ["ticdat_dummy"]) then
        (amplBuild .assert [(e.table, dummyClass c.pks)] e.table (amplFrame c.pks "ticdat_dummy" e.kept)).bind (fun items =>
          items.foldlM (fun d p => amplTouch c d p.1) d)
      else none
  else none

/-- The loop body of `copy_from_ampl_variables` (ticdatfactory.py:1510-1534). -/
def amplStep (case : CaseEnv) (policy : DupPolicy) (schema : List (String × TabClass)) (rtn : PyDict String TabVal)
    (e : AmplEntry) : Option (PyDict String TabVal) :=
  match PyDict.get? schema e.table, PyDict.get? rtn e.table with
  | some c, some (.keyed d) => (amplTable case policy schema c e d).map (fun d => PyDict.set rtn e.table (.keyed d))
  | _, _ => none

/-- `TicDatFactory.copy_from_ampl_variables` (ticdatfactory.py:1478-1535); `schema` has the tables that are not generic (the
others are empty in the result), `none` is a raised exception. -/
def copyFromAmpl (case : CaseEnv) (policy : DupPolicy) (schema : List (String × TabClass)) (es : List AmplEntry) :
    Option (PyDict String TabVal) :=
  if es.all (amplTarget schema) then
    es.foldlM (amplStep case policy schema) (schema.map (fun tc => (tc.1, emptyTable tc.2)))
  else none

/-- `df.reset_index(drop=True)`, called by pandatfactory.py:1701. -/
def Frame.dropIndex (v : Frame) : Frame := ⟨[], v.cols, v.rows.map (fun r => ([], r.2))⟩

/-- `PanDatFactory.copy_from_ampl_variables` (pandatfactory.py:1673-1703) once the `TicDatFactory` has been made from the
full schema (C69).  A generic table is `none` in the schema: `copy_to_pandas` puts its name there (C52), which has no
`reset_index`. -/
def panCopyFromAmpl (penv : PandasEnv) (case : CaseEnv) (policy : DupPolicy) (schema : List (String × Option TabClass))
    (es : List AmplEntry) : Option (PyDict String Frame) := do
  let tabs ← copyFromAmpl case policy (schema.filterMap (fun tc => tc.2.map (fun c => (tc.1, c)))) es
  schema.mapM (fun tc => do
    let c ← tc.2
    let tab ← PyDict.get? tabs tc.1
    let v ← copyToPandas penv c (some false) false tab
    let u ← panInit c v.dropIndex
    pure (tc.1, u))

/-! ## To AMPL -/

/-- What an `amplpy.DataFrame` has been given: the names of its index columns, then columns by `setColumn`, then by
`addColumn`. -/
structure AmplFrame where
  index : List String
  setCols : List (String × List Cell)
  addCols : List (String × List Cell)
deriving DecidableEq, Repr

/-- `field_renamings`: from table and field to the new name; a falsey new name is the empty string. -/
abbrev Renamings := PyDict (String × String) String

/-- `rename` (ticdatfactory.py:1574, pandatfactory.py:1639). -/
def amplRename (ren : Renamings) (t f : String) : String := (PyDict.get? ren (t, f)).getD f

/-- `copy_tables` (ticdatfactory.py:1560-1561, pandatfactory.py:1625-1626).  `primary_key_fields[t]` raises `KeyError` for a
generic table. -/
def amplTables (schema : List (String × Option TabClass)) (excluded : List String) : Option (List (String × TabClass)) :=
  (schema.mapM (fun (tc : String × Option TabClass) => tc.2.map (fun c => (tc.1, c)))).map (fun (l : List (String × TabClass)) =>
    l.filter (fun tc => decide (tc.2.pks ≠ []) && !decide (tc.1 ∈ excluded)))

/-- The check of `field_renamings` (ticdatfactory.py:1563-1567). -/
def goodRenaming (tables : List (String × TabClass)) (p : (String × String) × String) : Bool :=
  match PyDict.get? tables p.1.1 with
  | some c => decide (p.1.2 ∈ c.fields) && (decide (p.2 ≠ "") || decide (p.1.2 ∈ c.dfs))
  | none => false

/-- `list(df[f])` (ticdatfactory.py:1577, 1580, pandatfactory.py:1642, 1645); a missing column raises. -/
def Frame.column (v : Frame) (f : String) : Option (List Cell) := v.rows.mapM (fun r => v.cell r.2 (.name f))

/-- The columns for these fields, renamed (ticdatfactory.py:1576-1580). -/
def amplColumns (ren : Renamings) (t : String) (v : Frame) (fs : List String) : Option (List (String × List Cell)) :=
  fs.mapM (fun f => (v.column f).map (fun col => (amplRename ren t f, col)))

/-- One table of `copy_to_ampl` (ticdatfactory.py:1574-1580, pandatfactory.py:1639-1645); `adds` are the fields of the
second loop. -/
def amplTableOut (ren : Renamings) (t : String) (pks adds : List String) (v : Frame) : Option AmplFrame := do
  let s ← amplColumns ren t v pks
  let a ← amplColumns ren t v (adds.filter (fun f => decide (amplRename ren t f ≠ "")))
  pure ⟨pks.map (amplRename ren t), s, a⟩

/-- `TicDatFactory.copy_to_ampl` (ticdatfactory.py:1536-1582), after the check of the data object (C54). -/
def copyToAmpl (penv : PandasEnv) (schema : List (String × Option TabClass)) (dat : String → TabVal) (ren : Renamings)
    (excluded : List String) : Option (PyDict String AmplFrame) := do
  if excluded.all (fun t => decide (t ∈ schema.map Prod.fst)) then
    let tables ← amplTables schema excluded
    if ren.all (goodRenaming tables) then
      tables.mapM (fun tc => do
        let v ← copyToPandas penv tc.2 (some false) false (dat tc.1)
        let a ← amplTableOut ren tc.1 tc.2.pks tc.2.dfs v
        pure (tc.1, a))
    else none
  else none

/-- The check of `field_renamings` of a `PanDat` (pandatfactory.py:1629-1633): any column of the DataFrame can be renamed. -/
def goodPanRenaming (tables : List (String × TabClass)) (dat : String → Frame) (p : (String × String) × String) : Bool :=
  match PyDict.get? tables p.1.1 with
  | some c => (dat p.1.1).has p.1.2 && (decide (p.2 ≠ "") || !decide (p.1.2 ∈ c.pks))
  | none => false

/-- `{f for _t,f in field_renamings if _t == t}.union(self.data_fields[t])` (pandatfactory.py:1643).  Simplification: a
fixed order. -/
def panAmplFields (ren : Renamings) (t : String) (c : TabClass) : List String :=
  c.dfs ++ ((ren.filter (fun p => decide (p.1.1 = t))).map (fun p => p.1.2)).filter (fun f => !decide (f ∈ c.dfs))

/-- `PanDatFactory.copy_to_ampl` (pandatfactory.py:1598-1647), after the check of the data object (1619-1621). -/
def panCopyToAmpl (schema : List (String × Option TabClass)) (dat : String → Frame) (ren : Renamings)
    (excluded : List String) : Option (PyDict String AmplFrame) := do
  if excluded.all (fun t => decide (t ∈ schema.map Prod.fst)) then
    let tables ← amplTables schema excluded
    if ren.all (goodPanRenaming tables dat) then
      tables.mapM (fun tc => do
        let a ← amplTableOut ren tc.1 tc.2.pks (panAmplFields ren tc.1 tc.2) (dat tc.1)
        pure (tc.1, a))
    else none
  else none

end Ticdat
