import Verif.Model.FindDups
import Verif.Model.Factory
/-!
# What the readers of csv and Excel files remember between calls

`tdf.csv` and `tdf.xls` each keep a dictionary `_dv_dt` of the default value and data type of the fields they have met
(csvtd.py:37, 84-91, xls.py:100, 317-324).  The factory keeps the signs that `None` stands for (`_none_as_infinity_bias_cache`,
ticdatfactory.py:928, 1069-1083).  Here are both, and the readers with what they remember in place of the settings of the factory.
-/
namespace Ticdat

/-- What `_get_dv_dt` returns for table and field: the default value, if any, and the data type, if any. -/
abbrev Lookup := String → String → Option Cell × Option TypeDict

/-- `_read_cell` (csvtd.py:92-110) with the result `look` of `_get_dv_dt`; `_general_read_cell` asks the factory itself. -/
def csvCellBy (env : TextEnv) (cf : IOConf) (look : Lookup) (t f : String) (x : Cell) : Option Cell :=
  let inner : Option Cell :=
    if t = "parameters" ∧ cf.params ≠ [] then some x
    else
      let dt := (look t f).2
      (if x = .str "" then
        (if (dt.map (·.nullable)).getD (decide ((look t f).1 = some .none)) then some true
         else (readCell env cf t f .none).map Cell.numericish)
       else some false).map (fun isNone =>
        if isNone then .none
        else if (dt.map (·.numberAllowed)).getD ((look t f).1.map Cell.numericish |>.getD false) then
          (match x with
           | .str s => ((env.float s).map floatCell).getD x
           | x => x)
        else x)
  inner.bind (readCell env cf t f)

/-- csv `create_tic_dat` (csvtd.py:56-83, 111-120, 162-214) with what is remembered. -/
def csvCreateBy (env : TextEnv) (cenv : CaseEnv) (cf : IOConf) (look : Lookup) (policy : DupPolicy) (headersPresent : Bool)
    (schema : List (String × TabClass)) (dir : PyDict (List Char) CsvFile) : Option (PyDict String TabVal) :=
  ((gatherTables (fun tc => (csvFilePath cenv (PyDict.keys dir) tc.1.toList).bind (fun path =>
      match path with
      | none => some none
      | some f => ((PyDict.get? dir f).bind (fun lines =>
          if tc.2.fields = [] then none
          else (csvParse cenv (tc.2.fields.map String.toList) headersPresent lines).bind (fun rows =>
            (rows.mapM (fun row => mapCells (csvCellBy env cf look tc.1) tc.2.fields (row.map Prod.snd))).map (readerTable tc.2)))).map
          (fun x => if x.size = 0 then none else some x))) schema).bind (initDat policy schema)).map (postRead env cf.params)

/-- csv `find_duplicates` (csvtd.py:121-161) with what is remembered. -/
def csvDupsBy (env : TextEnv) (cenv : CaseEnv) (cf : IOConf) (look : Lookup) (headersPresent : Bool)
    (schema : List (String × TabClass)) (dir : PyDict (List Char) CsvFile) : Option (PyDict String (PyDict (PKey Cell) Nat)) :=
  (collectRecords (fun c => c.fields) (fun tc => (csvFilePath cenv (PyDict.keys dir) tc.1.toList).bind (fun path =>
      match path with
      | none => some none
      | some f => ((PyDict.get? dir f).bind (fun lines =>
          (csvParse cenv (tc.2.fields.map String.toList) headersPresent lines).bind (fun rows =>
            rows.mapM (fun row => mapCells (csvCellBy env cf look tc.1) tc.2.fields (row.map Prod.snd))))).map some))
    (keyedOnly schema)).bind (fun recs =>
      csvFindDuplicates (pkFieldsOf schema) (fun t => PyDict.has recs t) (fun t => (PyDict.get? recs t).getD []))

/-- `_read_cell` (xls.py:330-345) with the result `look` of `_get_dv_dt`. -/
def xlCellBy (env : XlEnv) (cf : IOConf) (look : Lookup) (o : XlOpts) (t f : String) (x : Cell) : Option Cell :=
  let dt := (look t f).2
  if x = .str "" ∧ (dt.map (·.nullable)).getD (decide ((look t f).1 = some .none)) = true then some .none
  else
    match (if xlTreatInf cf o t then xlInfText env.case x else none) with
    | some y => some (.num y)
    | none =>
      (if x = .str "" then readCell env.text cf t f .none else some .none).bind (fun y =>
        if y.numericish then some y
        else readCell env.text cf t f
          (xlDate env ((dt.map (·.datetime)).getD false && decide (o.kind = .xls)) x))

/-- Excel `create_tic_dat` (xls.py:102-168, 231-263) with what is remembered. -/
def xlCreateBy (env : XlEnv) (cf : IOConf) (look : Lookup) (policy : DupPolicy) (o : XlOpts)
    (schema : List (String × TabClass)) (book : Book) : Option (PyDict String TabVal) :=
  if sheetNamesDiffer (schema.map (fun tc => tc.1.toList)) then
    ((gatherTables (fun tc => (sheetOf env.case (PyDict.keys book) tc.1.toList).bind (fun s =>
      match s with
      | none => some none
      | some n => ((PyDict.get? book n).bind (fun g =>
          if tc.2.fields = [] then none
          else (xlColumns env.case o tc.1 tc.2.fields g).bind (fun cols =>
            (((List.range (xlDims o.kind o.prune g).2.1).drop (o.offset tc.1 + if o.headers then 1 else 0)).mapM (fun i =>
              mapCells (xlCellBy env cf look o tc.1) tc.2.fields (cols.map (fun j => xlFill o.kind (g.at i j))))).map
                (readerTableX tc.2)))).map some)) schema).bind (initDat policy schema)).map (postRead env.text cf.params)
  else none

/-- Excel `find_duplicates` (xls.py:265-315) with what is remembered. -/
def xlDupsBy (env : XlEnv) (cf : IOConf) (look : Lookup) (o : XlOpts) (schema : List (String × TabClass)) (book : Book) :
    Option (PyDict String (PyDict (PKey Cell) Nat)) :=
  if sheetNamesDiffer (schema.map (fun tc => tc.1.toList)) then
    (collectRecords (fun c => c.pks) (fun tc => (sheetOf env.case (PyDict.keys book) tc.1.toList).bind (fun s =>
      match s with
      | none => some none
      | some n => ((PyDict.get? book n).bind (fun g =>
          (xlColumns env.case o tc.1 tc.2.fields g).bind (fun cols =>
            ((List.range (xlDims o.kind o.prune g).2.1).drop (o.offset tc.1 + if o.headers then 1 else 0)).mapM (fun i =>
              mapCells (xlCellBy env cf look { o with treatInf := true } tc.1) tc.2.pks
                (cols.map (fun j => xlFill o.kind (g.at i j))))))).map some)) (keyedOnly schema)).bind (fun recs =>
      csvFindDuplicates (pkFieldsOf schema) (fun _ => true) (fun t => (PyDict.get? recs t).getD []))
  else none

variable {V K : Type}

/-- `default_values.get(table, {}).get(field, ..)` and `data_types.get(table, {}).get(field)` (csvtd.py:87-90, xls.py:320-323). -/
def Factory.lookup (f : Factory V K) : Lookup := fun t fld => (PyDict.get2 f.defaults t fld, f.types.at t fld)

/-- The settings that cell input and output depend on. -/
def Factory.ioConf (f : Factory V K) : IOConf := ⟨f.types, f.flag, f.automunge, f.params⟩

/-- A factory with what its reader of csv files (or of Excel files) remembers, and what the factory remembers of the signs. -/
structure FileReader (V K : Type) where
  factory : Factory V K
  cache : PyDict (String × String) (Option Cell × Option TypeDict)
  bias : PyDict (String × String) (Option Bool)

/-- A new factory. -/
def FileReader.new (f : Factory V K) : FileReader V K := ⟨f, [], []⟩

/-- What `_get_dv_dt` returns (csvtd.py:84-91, xls.py:317-324). -/
def FileReader.getDvDt (r : FileReader V K) : Lookup := fun t f => (PyDict.get? r.cache (t, f)).getD (r.factory.lookup t f)

/-- What it remembers of a field (csvtd.py:86-90, xls.py:319-323). -/
def FileReader.note (r : FileReader V K) (k : String × String) : FileReader V K :=
  if PyDict.has r.cache k then r else { r with cache := PyDict.set r.cache k (r.factory.lookup k.1 k.2) }

/-- The sign of the infinity that a missing number stands for, computed from the data type (`_f`, ticdatfactory.py:1074-1081,
pandatfactory.py:415-422); the outer `none` raises. -/
def typeBias (env : TextEnv) (types : DataTypes) (t f : String) : Option (Option Bool) :=
  match types.at t f with
  | none => some none
  | some td =>
    if td.numberAllowed && !td.validData env.parses .none then
      if td.validData env.parses (.num .pinf) && td.validData env.parses (.num .ninf) then none
      else if td.validData env.parses (.num .pinf) then some (some true)
      else if td.validData env.parses (.num .ninf) then some (some false)
      else some none
    else some none

/-- `_none_as_infinity_bias` (ticdatfactory.py:1069-1083, pandatfactory.py:410-424): the result, and what is remembered. -/
def FileReader.askBias (env : TextEnv) (r : FileReader V K) (t f : String) : Option (Option Bool) × FileReader V K :=
  if r.factory.flag ≠ .none then (some none, r)
  else
    match PyDict.get? r.bias (t, f) with
    | some b => (some b, r)
    | none =>
      match typeBias env r.factory.types t f with
      | none => (none, r)
      | some b => (some b, { r with bias := PyDict.set r.bias (t, f) b })

/-- Does a call clear what is remembered of the signs: `set_data_type`, `clear_data_type` and `set_infinity_io_flag`, if they get so
far (ticdatfactory.py:242, 256-261, 1024). -/
def clearsBias (f : Factory V K) (raised : Bool) : FOp V K → Bool
  | .setDataType _ _ _ => !raised
  | .clearDataType t fld => !raised && (f.types.at t fld).isSome
  | .setFlag _ => !raised
  | _ => false

/-- What can happen: a call on the factory; a read, which meets some fields (which ones depends on the files, and on where it fails) and
may get as far as creating a `TicDat`; the sign of a field is asked for. -/
inductive ROp (V K : Type) where
  | call (op : FOp V K)
  | read (fields : List (String × String)) (creates : Bool)
  | ask (t f : String)

/-- One step. -/
inductive RStep (env : FactoryEnv) : FileReader V K → ROp V K → FileReader V K → Prop
  | call {r : FileReader V K} {op : FOp V K} {g : Factory V K} {raised : Bool} : FStep env r.factory op g raised →
      RStep env r (.call op) ⟨g, r.cache, if clearsBias r.factory raised op then [] else r.bias⟩
  | read {r : FileReader V K} {fields : List (String × String)} {creates : Bool} :
      RStep env r (.read fields creates)
        { fields.foldl FileReader.note r with factory := { r.factory with used := r.factory.used || creates } }
  | ask {r : FileReader V K} {t f : String} : RStep env r (.ask t f) (r.askBias env.text t f).2

/-- A history. -/
inductive RRun (env : FactoryEnv) : FileReader V K → List (ROp V K) → FileReader V K → Prop
  | nil {r : FileReader V K} : RRun env r [] r
  | cons {r s u : FileReader V K} {op : ROp V K} {ops : List (ROp V K)} : RStep env r op s → RRun env s ops u → RRun env r (op :: ops) u

end Ticdat
