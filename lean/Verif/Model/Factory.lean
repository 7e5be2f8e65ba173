import Verif.Model.Implied
import Verif.Model.CellIO
import Verif.Model.Names
/-!
# The state of a `TicDatFactory`: its setters, `schema`, `create_from_full_schema`

`none` as a result stands for a raised exception.  Except for `set_default_values` a setter that raises has not changed
anything yet.
-/
namespace Ticdat

/-- What the model does not decide itself: text conversion, the case of characters, and which of the objects that are
neither `None`, numbers, strings, Booleans nor datetimes are containers. -/
structure FactoryEnv where
  text : TextEnv
  case : CaseEnv
  container : Nat → Bool

/-- The declaration of one table: `'*'`, or primary key fields and data fields (ticdatfactory.py:635-680). -/
inductive Decl where
  | generic
  | fields (pks dfs : List String)
deriving DecidableEq, Repr

/-- `d[a][b] = v` on a `defaultdict(dict)`. -/
def PyDict.set2 {A B C : Type} [DecidableEq A] [DecidableEq B] (d : PyDict A (PyDict B C)) (a : A) (b : B) (v : C) :
    PyDict A (PyDict B C) := d.set a (((PyDict.get? d a).getD []).set b v)

/-- `d.get(a, {}).get(b)`. -/
def PyDict.get2 {A B C : Type} [DecidableEq A] [DecidableEq B] (d : PyDict A (PyDict B C)) (a : A) (b : B) : Option C :=
  (PyDict.get? d a).bind (fun r => PyDict.get? r b)

/-- `for a, r in d.items(): for b, v in r.items(): ...`. -/
def PyDict.flat {A B C : Type} (d : PyDict A (PyDict B C)) : List (A × B × C) :=
  d.flatMap (fun p => p.2.map (fun q => (p.1, q.1, q.2)))

/-- `duplicates_ticdat_init` (ticdatfactory.py:932-950). -/
inductive DupMode where
  | assert
  | warn
  | ignore
deriving DecidableEq, Repr

/-- A `TicDatFactory` (ticdatfactory.py:635-930).  `tooltips` is keyed by `(table, "")` where the code has the bare table
name (utils.py:80).  `fks` is `_foreign_keys` as a list without repetitions.  `prune` is `xlsx_trailing_empty_rows ==
"prune"`.  Not modelled: `_linkName`, `_prepends`, `_convert_dat` (see C41), the cache of infinity biases. -/
structure Factory (V K : Type) where
  tables : PyDict String Decl
  defaults : PyDict String (PyDict String Cell)
  types : DataTypes
  preds : Preds V K
  tooltips : PyDict (String × String) String
  generators : List String
  fks : List FK
  links : Bool
  params : Params
  flag : InfFlag
  prune : Bool
  dups : DupMode
  automunge : Bool
  used : Bool

/-- `primary_key_fields.get(t, ())` of a declaration. -/
def Decl.pks : Decl → List String
  | .generic => []
  | .fields pks _ => pks

/-- `data_fields.get(t, ())` of a declaration. -/
def Decl.dfs : Decl → List String
  | .generic => []
  | .fields _ dfs => dfs

/-- The tables that are not generic, as used by the code on foreign keys. -/
def plainTables (tables : PyDict String Decl) : Schema :=
  tables.filterMap (fun p => match p.2 with
    | .generic => none
    | .fields pks dfs => some (p.1, ⟨pks, dfs⟩))

/-- The checks of one table declaration (ticdatfactory.py:658-672). -/
def goodDecl (case : CaseEnv) : Decl → Bool
  | .generic => true
  | .fields pks dfs =>
    decide (pks ++ dfs ≠ []) && decide ((pks ++ dfs).Nodup) &&
      decide (((pks ++ dfs).map (fun f => case.lower f.toList)).Nodup)

/-- The initial default values: 0 for every data field (ticdatfactory.py:679-682). -/
def zeroDefaults (tables : PyDict String Decl) : PyDict String (PyDict String Cell) :=
  tables.filterMap (fun p => if p.2.dfs = [] then none
    else some (p.1, p.2.dfs.map (fun f => (f, Cell.num (.fin 0)))))

/-- `TicDatFactory(**init_fields)` (ticdatfactory.py:635-930). -/
def newFactory {V K : Type} (env : FactoryEnv) (tables : PyDict String Decl) : Option (Factory V K) :=
  if goodTableNames env.case ((PyDict.keys tables).map String.toList) && tables.all (fun p => goodDecl env.case p.2) then
    some { tables := tables, defaults := zeroDefaults tables, types := [], preds := [], tooltips := [], generators := [],
           fks := [], links := false, params := [], flag := .na, prune := true, dups := .assert, automunge := true,
           used := false }
  else none

variable {V K : Type}

/-- Is `fld` a field of the table `t` (which is not generic): the verifications at the start of `set_data_type`,
`set_default_value` and `set_tooltip`.  Indexing `data_fields` with a generic table raises `KeyError`. -/
def Factory.hasField (f : Factory V K) (t fld : String) : Bool :=
  match PyDict.get? f.tables t with
  | some (.fields pks dfs) => decide (fld ∈ pks ++ dfs)
  | _ => false

/-- `data_fields.get(t, ())`. -/
def Factory.dfsOf (f : Factory V K) (t : String) : List String :=
  match PyDict.get? f.tables t with
  | some d => d.dfs
  | none => []

/-- `set_data_type` (ticdatfactory.py:192-242). -/
def Factory.setDataType (f : Factory V K) (t fld : String) (a : TypeArgs) : Option (Factory V K) :=
  if !f.used && f.hasField t fld &&
      !(decide (t = "parameters") && decide (fld ∈ f.dfsOf t) && decide (f.params ≠ [])) then
    (TypeDict.safeCreator a).map (fun td => { f with types := PyDict.set2 f.types t fld td })
  else none

/-- `clear_data_type` (ticdatfactory.py:244-261, pandatfactory.py:623-640). -/
def Factory.clearDataType (f : Factory V K) (t fld : String) : Option (Factory V K) :=
  match PyDict.get? f.types t with
  | none => some f
  | some r =>
    if PyDict.has r fld then
      if f.used then none else some { f with types := PyDict.set f.types t (PyDict.erase r fld) }
    else some f

/-- `acceptable_default` (utils.py:258-259). -/
def acceptableDefault : Cell → Bool
  | .none => true
  | .nan => true
  | .num _ => true
  | .bool _ => true
  | .str _ => true
  | _ => false

/-- `set_default_value` (ticdatfactory.py:400-417, pandatfactory.py:786-810). -/
def Factory.setDefault (f : Factory V K) (t fld : String) (c : Cell) : Option (Factory V K) :=
  if !f.used && f.hasField t fld && acceptableDefault c then
    some { f with defaults := PyDict.set2 f.defaults t fld c }
  else none

/-- The verifications of `set_default_values` for one table (ticdatfactory.py:436-441). -/
def Factory.goodDefaults (f : Factory V K) (t : String) (v : PyDict String Cell) : Bool :=
  match PyDict.get? f.tables t with
  | some (.fields pks dfs) =>
    (PyDict.keys v).all (fun fld => decide (fld ∈ pks ++ dfs)) && v.all (fun p => acceptableDefault p.2)
  | _ => false

/-- The loop of `set_default_values` (ticdatfactory.py:435-442); the tables before a bad one are changed, and the flag
says whether it raised. -/
def Factory.setDefaultsLoop : List (String × PyDict String Cell) → Factory V K → Factory V K × Bool
  | [], f => (f, false)
  | (t, v) :: rest, f =>
    if f.goodDefaults t v then
      Factory.setDefaultsLoop rest
        { f with defaults := PyDict.set f.defaults t
                   (v.foldl (fun d p => PyDict.set d p.1 p.2) ((PyDict.get? f.defaults t).getD [])) }
    else (f, true)

/-- `set_default_values` (ticdatfactory.py:419-442). -/
def Factory.setDefaults (f : Factory V K) (l : PyDict String (PyDict String Cell)) : Factory V K × Bool :=
  if f.used then (f, true) else Factory.setDefaultsLoop l f

/-- `add_foreign_key` (ticdatfactory.py:541-581, pandatfactory.py:872-915).  `mapping` lists the pairs; a simple key has one.  The pairs become a
dictionary by native field.  The message about circles (C07) is not modelled here. -/
def Factory.addFK (f : Factory V K) (native foreign : String) (mapping : List (String × String)) :
    Option (Factory V K) :=
  if f.used then none
  else
    match PyDict.get? f.tables native, PyDict.get? f.tables foreign with
    | some (.fields npks ndfs), some (.fields fpks fdfs) =>
      if mapping ≠ [] ∧ ∀ p ∈ PyDict.ofList mapping, p.1 ∈ npks ++ ndfs ∧ p.2 ∈ fpks ++ fdfs then
        some { f with fks := setAdd f.fks ⟨native, foreign, PyDict.ofList mapping⟩ }
      else none
    | _, _ => none

/-- `clear_foreign_keys` (ticdatfactory.py:463-479, pandatfactory.py:837-853); an empty table name stands for all tables. -/
def Factory.clearFKs (f : Factory V K) (native : Option String) : Option (Factory V K) :=
  if f.used then none
  else
    match native with
    | none => some { f with fks := [] }
    | some t =>
      if PyDict.has f.tables t then
        some { f with fks := f.fks.filter (fun k => !(decide (k.native = t) || decide (t = ""))) }
      else none

/-- `add_parameter` (ticdatfactory.py:334-387, pandatfactory.py:718-773); `enforce = none` is `enforce_type_rules = False`. -/
def Factory.addParam (env : FactoryEnv) (f : Factory V K) (name default : Cell) (enforce : Option TypeArgs) :
    Option (Factory V K) :=
  match PyDict.get? f.tables "parameters" with
  | some (.fields [_] [df]) =>
    if (PyDict.get2 f.types "parameters" df).isSome || f.used then none
    else (addParameter env.text f.params name default enforce).map (fun ps => { f with params := ps })
  | _ => none

/-- `remove_parameter` (ticdatfactory.py:389-398, pandatfactory.py:775-784). -/
def Factory.removeParam (f : Factory V K) (name : Cell) : Option (Factory V K) :=
  if PyDict.has f.params name then some { f with params := PyDict.erase f.params name } else none

/-- Can the table be a generator table: it is no generic table and has no primary key (ticdatfactory.py:455-461). -/
def Factory.pkless (f : Factory V K) (t : String) : Bool :=
  match PyDict.get? f.tables t with
  | some (.fields [] _) => true
  | _ => false

/-- `set_generator_tables` (ticdatfactory.py:443-462). -/
def Factory.setGenerators (f : Factory V K) (g : List String) : Option (Factory V K) :=
  if f.used then none
  else if g.all f.pkless then
    some { f with generators := g }
  else none

/-- `set_tooltip` (utils.py:75-84). -/
def Factory.setTooltip (f : Factory V K) (t fld tip : String) : Option (Factory V K) :=
  if PyDict.has f.tables t && (decide (fld = "") || f.hasField t fld) then
    some { f with tooltips := if tip = "" then PyDict.erase f.tooltips (t, fld) else PyDict.set f.tooltips (t, fld) tip }
  else none

/-- `add_data_row_predicate` (ticdatfactory.py:263-319), called with a predicate or `None`. -/
def Factory.addRowPred (f : Factory V K) (c : PredCall V K) : Option (Factory V K) :=
  if f.used then none
  else
    match PyDict.get? f.tables c.table with
    | some (.fields _ _) => if c.table ∈ f.generators then none else some { f with preds := addPred f.preds c }
    | _ => none

/-- `set_xlsx_trailing_empty_rows` (ticdatfactory.py:958-972). -/
def parseTrailing (s : String) : Option Bool :=
  if s = "prune" then some true else if s = "ignore" then some false else none

/-- `set_duplicates_ticdat_init` (ticdatfactory.py:938-950). -/
def parseDups (s : String) : Option DupMode :=
  if s = "assert" then some .assert else if s = "warn" then some .warn else if s = "ignore" then some .ignore else none

/-- A call on a factory that may change it; `use` is the creation of a `TicDat` (ticdatfactory.py:777), by the user or by
one of the readers. -/
inductive FOp (V K : Type) where
  | setDataType (t fld : String) (a : TypeArgs)
  | clearDataType (t fld : String)
  | setDefault (t fld : String) (c : Cell)
  | setDefaults (l : PyDict String (PyDict String Cell))
  | addFK (native foreign : String) (mapping : List (String × String))
  | clearFKs (native : Option String)
  | addImplied
  | addParam (name default : Cell) (enforce : Option TypeArgs)
  | removeParam (name : Cell)
  | setGenerators (g : List String)
  | setTooltip (t fld tip : String)
  | addRowPred (c : PredCall V K)
  | setFlag (c : Cell)
  | setTrailing (s : String)
  | setDups (s : String)
  | setAutomunge (b : Bool)
  | enableLinks
  | use

/-- A setter that raises has no effect. -/
def Factory.tryOp (f : Factory V K) : Option (Factory V K) → Factory V K × Bool
  | some g => (g, false)
  | none => (f, true)

/-- The effect of a call, and whether it raised; `add_implied_foreign_keys` is treated by `FStep`.
`set_infinity_io_flag` etc. (ticdatfactory.py:938-1024), `enable_foreign_key_links` (503-515) and `_trigger_has_been_used`
(593-609). -/
def Factory.apply (env : FactoryEnv) (f : Factory V K) : FOp V K → Factory V K × Bool
  | .setDataType t fld a => f.tryOp (f.setDataType t fld a)
  | .clearDataType t fld => f.tryOp (f.clearDataType t fld)
  | .setDefault t fld c => f.tryOp (f.setDefault t fld c)
  | .setDefaults l => f.setDefaults l
  | .addFK n g m => f.tryOp (f.addFK n g m)
  | .clearFKs n => f.tryOp (f.clearFKs n)
  | .addImplied => (f, f.used)
  | .addParam n d e => f.tryOp (f.addParam env n d e)
  | .removeParam n => f.tryOp (f.removeParam n)
  | .setGenerators g => f.tryOp (f.setGenerators g)
  | .setTooltip t fld tip => f.tryOp (f.setTooltip t fld tip)
  | .addRowPred c => f.tryOp (f.addRowPred c)
  | .setFlag c => f.tryOp ((setInfFlag c).map (fun x => { f with flag := x }))
  | .setTrailing s => f.tryOp ((parseTrailing s).map (fun x => { f with prune := x }))
  | .setDups s => f.tryOp ((parseDups s).map (fun x => { f with dups := x }))
  | .setAutomunge b => ({ f with automunge := b }, false)
  | .enableLinks => ({ f with links := true }, false)
  | .use => ({ f with used := true }, false)

/-- One call with its effect.  `add_implied_foreign_keys` adds derived keys in any order (ticdatfactory.py:516-540). -/
inductive FStep (env : FactoryEnv) : Factory V K → FOp V K → Factory V K → Bool → Prop
  | plain {f g : Factory V K} {op : FOp V K} {r : Bool} : op ≠ .addImplied → f.apply env op = (g, r) → FStep env f op g r
  | impliedUsed {f : Factory V K} : f.used = true → FStep env f .addImplied f true
  | implied {f : Factory V K} {n : Nat} {fks : List FK} : f.used = false →
      ImpliedRun (plainTables f.tables) n f.fks fks → FStep env f .addImplied { f with fks := fks } false

/-- A sequence of calls, raising or not. -/
inductive FRun (env : FactoryEnv) : Factory V K → List (FOp V K) → Factory V K → Prop
  | nil {f : Factory V K} : FRun env f [] f
  | cons {f g h : Factory V K} {op : FOp V K} {ops : List (FOp V K)} {r : Bool} :
      FStep env f op g r → FRun env g ops h → FRun env f (op :: ops) h

/-- The dictionary returned by `schema(include_ancillary_info=True)` (ticdatfactory.py:85-95).  Entries that older
versions did not have are optional.  `tooltips` is nested, `""` standing for the table (utils.py:88-95). -/
structure FullSchema where
  tables : PyDict String Decl
  fks : List FK
  defaults : PyDict String (PyDict String Cell)
  types : DataTypes
  params : Option Params
  flag : Option InfFlag
  prune : Option Bool
  dups : Option DupMode
  automunge : Option Bool
  tooltips : Option (PyDict String (PyDict String String))

/-- `make_tooltips_dict_json_friendly` (utils.py:88-95). -/
def friendlyTips (tips : PyDict (String × String) String) : PyDict String (PyDict String String) :=
  tips.foldl (fun d p => PyDict.set2 d p.1.1 p.1.2 p.2) []

/-- `schema(include_ancillary_info=True)` (ticdatfactory.py:69-95).  The order of the tables comes from a Python set. -/
def Factory.schema (f : Factory V K) : FullSchema where
  tables := f.tables
  fks := f.fks
  defaults := f.defaults
  types := f.types
  params := some f.params
  flag := some f.flag
  prune := some f.prune
  dups := some f.dups
  automunge := some f.automunge
  tooltips := some (friendlyTips f.tooltips)

/-- `containerish(c)` on a cell. -/
def FactoryEnv.containerish (env : FactoryEnv) : Cell → Bool
  | .other n => env.container n
  | _ => false

/-- The value handed to `set_infinity_io_flag` for a flag. -/
def InfFlag.toCell : InfFlag → Cell
  | .na => .str "N/A"
  | .none => .none
  | .num q => .num (.fin q)

/-- `if "infinity_io_flag" in full_schema: rtn.set_infinity_io_flag(..)` (ticdatfactory.py:142-143). -/
def Factory.withFlag (f : Factory V K) : Option InfFlag → Option (Factory V K)
  | some x => (setInfFlag x.toCell).map (fun x => { f with flag := x })
  | none => some f

/-- `create_from_full_schema` (ticdatfactory.py:97-156).  The shapes of the entries are fixed by the type; data types are
passed on as nine arguments. -/
def createFromFullSchema (env : FactoryEnv) (fs : FullSchema) : Option (Factory V K) := do
  let params := fs.params.getD []
  if params.all (fun p => p.1.stringish && !env.containerish p.2.2) then
    let f ← newFactory env fs.tables
    let f ← fs.fks.foldlM (fun f k => f.addFK k.native k.foreign k.mapping) f
    let f ← (PyDict.flat fs.types).foldlM (fun f p => f.setDataType p.1 p.2.1 p.2.2.toArgs) f
    let f ← (PyDict.flat fs.defaults).foldlM (fun f p => f.setDefault p.1 p.2.1 p.2.2) f
    let f ← params.foldlM (fun f p => f.addParam env p.1 p.2.2 (p.2.1.map TypeDict.toArgs)) f
    let f ← f.withFlag fs.flag
    let f := { f with prune := fs.prune.getD f.prune, dups := fs.dups.getD f.dups,
                      automunge := fs.automunge.getD f.automunge }
    (PyDict.flat (fs.tooltips.getD [])).foldlM (fun f p => f.setTooltip p.1 p.2.1 p.2.2) f
  else none

end Ticdat
