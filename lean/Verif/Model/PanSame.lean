import Verif.Model.SameData
import Verif.Model.Factory
/-!
# `copy_pan_dat`, `copy_to_tic_dat` and `_same_data` of a `PanDatFactory`

A `PanDat` object is a dictionary of DataFrames.  The schema has no generator tables.
-/
namespace Ticdat

/-- A table of `TicDatFactory(**self.schema())`: default values are 0 (ticdatfactory.py:679-682), not those of the
`PanDatFactory`. -/
def freshClass (pks dfs : List String) : TabClass := ⟨pks, dfs, dfs.map (fun f => (f, Cell.num (.fin 0)))⟩

/-- A column label as a field name: `TicDatFactory` verifies that field names are strings (ticdatfactory.py:658-660). -/
def Label.fieldName : Label → Option String
  | .name s => some s
  | .pos _ => none

/-- The entry of `sch` for one table (pandatfactory.py:1097-1100, 1112-1119). -/
def copyKind (keep : Bool) (obj : PyDict String Frame) (tk : String × TabKind) : Option (String × TabKind) :=
  match tk.2 with
  | .generic =>
    if keep then some tk
    else (PyDict.get? obj tk.1).bind (fun v => (v.cols.mapM Label.fieldName).map (fun l => (tk.1, .plain (freshClass [] l))))
  | .generator c => some (tk.1, .plain (freshClass c.pks c.dfs))
  | .plain c => some (tk.1, .plain (freshClass c.pks c.dfs))

/-- The declaration of a table of this kind. -/
def TabKind.decl : TabKind → Decl
  | .generic => .generic
  | .generator c => .fields c.pks c.dfs
  | .plain c => .fields c.pks c.dfs

/-- `sch` and `TicDatFactory(**sch)` (pandatfactory.py:1097-1102, 1112-1119).  The names of the tables are those of the
`PanDatFactory`, which has verified them already. -/
def copyFactory (env : FactoryEnv) (keep : Bool) (kinds : List (String × TabKind)) (obj : PyDict String Frame) :
    Option (List (String × TabKind)) :=
  (kinds.mapM (copyKind keep obj)).bind (fun ks => if ks.all (fun tk => goodDecl env.case tk.2.decl) then some ks else none)

/-- `df(t)` (pandatfactory.py:1104-1108): the rows of a generic table as lists, other tables as they are. -/
def copyArg (keep : Bool) (obj : PyDict String Frame) (tk : String × TabKind) : Option (String × AttrVal) :=
  (PyDict.get? obj tk.1).map (fun v => (tk.1,
    if tk.2.isGeneric && !keep then .tab (.seq (v.rows.map (fun r => .seq r.2))) else .frame v))

/-- `DataFrame(df)` of a DataFrame; nothing else is passed for a generic table here. -/
def frameAsIs : AttrVal → Option Frame
  | .frame v => some v
  | _ => none

/-- `_copy_to_tic_dat` (pandatfactory.py:1096-1109); `policy` is `duplicates_ticdat_init`, `keep` is
`keep_generics_as_df`.  `none` is a raised exception. -/
def panToTic (env : FactoryEnv) (policy : DupPolicy) (keep : Bool) (kinds : List (String × TabKind)) (obj : PyDict String Frame) :
    Option (PyDict String OutTab) :=
  (copyFactory env keep kinds obj).bind (fun ks => (kinds.mapM (copyArg keep obj)).bind (fun input =>
    initKinds frameAsIs policy ks input))

/-- The fields of a table: `primary_key_fields.get(t, ()) + data_fields.get(t, ())`. -/
def TabKind.fields : TabKind → List String
  | .generic => []
  | .generator c => c.fields
  | .plain c => c.fields

/-- `good_pan_dat_object` (pandatfactory.py:1032-1056) for an object whose attributes are DataFrames. -/
def goodPanObject (kinds : List (String × TabKind)) (obj : PyDict String Frame) : Bool :=
  kinds.all (fun tk => match PyDict.get? obj tk.1 with
    | none => false
    | some v => tk.2.fields.all v.has)

/-- `copy_to_tic_dat` (pandatfactory.py:1070-1095), up to `freeze_it` (C27). -/
def copyToTicDat (env : FactoryEnv) (policy : DupPolicy) (kinds : List (String × TabKind)) (obj : PyDict String Frame) :
    Option (PyDict String OutTab) :=
  if goodPanObject kinds obj then panToTic env policy true kinds obj else none

/-- The class of a table for `PanDat`: a generic table has no fields. -/
def TabKind.cls : TabKind → TabClass
  | .generic => ⟨[], [], []⟩
  | .generator c => c
  | .plain c => c

/-- `copy_pan_dat` (pandatfactory.py:1057-1069). -/
def copyPanDat (kinds : List (String × TabKind)) (obj : PyDict String Frame) : Option (PyDict String Frame) :=
  if goodPanObject kinds obj then
    kinds.mapM (fun tk => (PyDict.get? obj tk.1).bind (fun v => (panInit tk.2.cls v).map (fun u => (tk.1, u))))
  else none

/-- `len(getattr(obj, t))`. -/
def panLen (obj : PyDict String Frame) (t : String) : Nat := ((PyDict.get? obj t).map (fun v => v.rows.length)).getD 0

/-- `getattr(obj, t).columns`. -/
def columnsOf (obj : PyDict String Frame) (t : String) : List Label := ((PyDict.get? obj t).map Frame.cols).getD []

/-- `set(getattr(obj1, t).columns) == set(getattr(obj2, t).columns)` (pandatfactory.py:1116). -/
def sameCols (o1 o2 : PyDict String Frame) (t : String) : Bool :=
  (columnsOf o1 t).all (fun l => decide (l ∈ columnsOf o2 t)) && (columnsOf o2 t).all (fun l => decide (l ∈ columnsOf o1 t))

/-- `_same_data` of a `PanDatFactory` (pandatfactory.py:1110-1122); `none` is a raised exception.  The objects have an
attribute for every table. -/
def panSame (env : FactoryEnv) (policy : DupPolicy) (eps : Rat) (nansSame : Bool) (kinds : List (String × TabKind))
    (o1 o2 : PyDict String Frame) : Option Bool :=
  if !kinds.all (fun tk => decide (panLen o1 tk.1 = panLen o2 tk.1)) then some false
  else if !(kinds.filter (fun tk => tk.2.isGeneric)).all (fun tk => sameCols o1 o2 tk.1) then some false
  else
    (copyFactory env false kinds o1).bind (fun ks =>
      (panToTic env policy false kinds o1).bind (fun t1 =>
        (panToTic env policy false kinds o2).bind (fun t2 => sameData ⟨eps, nansSame, false⟩ ks t1 t2)))

end Ticdat
