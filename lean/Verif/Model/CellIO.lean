import Verif.Model.DataType
import Verif.Model.RowPred
/-!
# Cells on their way to and from files: infinity flags, parameters
-/
namespace Ticdat

/-- The library functions that turn text into values and back.  They are not modelled; theorems state what they need of
them.
* `float s`: `float(s)` on a string, `none` if it raises; `some none` is NaN.
* `date c`: what `pd.Timestamp` or `dateutil.parser.parse` make of a cell that is no number and no datetime
  (utils.py:236-256).
* `text c`: the text that stands for a cell in a text file: `str(c)`, and the empty text for `None` (as the csv module
  writes it). -/
structure TextEnv where
  float : String → Option (Option XNum)
  date : Cell → Option Nat
  text : Cell → String

/-- A `float` as a cell. -/
def floatCell : Option XNum → Cell
  | none => .nan
  | some x => .num x

/-- `safe_apply(float)(x)` (utils.py:934-940).  Simplification: objects other than numbers, Booleans and strings are taken
to have no `__float__`. -/
def toFloat (env : TextEnv) : Cell → Option Cell
  | .num x => some (.num x)
  | .nan => some .nan
  | .bool b => some (.num (.fin (if b then 1 else 0)))
  | .str s => (env.float s).map floatCell
  | _ => none

/-- `dateutil_adjuster` (utils.py:231-256): a datetime is itself; a number is none (`pd.Timestamp` is not tried on numbers
and `dateutil.parser.parse` raises on them). -/
def dateAdjust (env : TextEnv) : Cell → Option Nat
  | .dt d => some d
  | .num _ => none
  | .nan => none
  | c => env.date c

/-- "`dateutil_adjuster(c)` is not None", the test used by `valid_data` (utils.py:278-279). -/
def TextEnv.parses (env : TextEnv) (c : Cell) : Bool := (dateAdjust env c).isSome

/-- `infinity_io_flag`: `'N/A'`, `None` or a number (ticdatfactory.py:1021-1023). -/
inductive InfFlag where
  | na
  | none
  | num (q : Rat)
deriving DecidableEq, Repr

/-- `set_infinity_io_flag` (ticdatfactory.py:994-1024, pandatfactory.py:381-409) accepts `'N/A'`, `None` and positive finite numbers; `none` is a
raised error. -/
def setInfFlag : Cell → Option InfFlag
  | .str s => if s = "N/A" then some .na else none
  | .none => some .none
  | .num (.fin q) => if 0 < q then some (.num q) else none
  | _ => none

/-- The parts of a factory that cell input and output depend on. -/
structure IOConf where
  types : DataTypes
  flag : InfFlag
  automunge : Bool
  params : Params

/-- `dt.strings_allowed` as a truth value: `'*'` or a non-empty tuple. -/
def Strings.truthy : Strings → Bool
  | .any => true
  | .oneOf l => !l.isEmpty

/-- The infinity of a sign: `rtn * float("inf")`. -/
def infOf (pos : Bool) : XNum := if pos then .pinf else .ninf

/-- `_none_as_infinity_bias` (ticdatfactory.py:1069-1083, pandatfactory.py:410-424); the outer `none` is the raised error,
`true` is 1 and `false` is -1.  The cache is modelled in `Verif.Model.ReadCache`,
where it is shown to make no difference.
-/
def infBias (env : TextEnv) (cf : IOConf) (t f : String) : Option (Option Bool) :=
  if cf.flag ≠ .none then some none
  else
    match cf.types.at t f with
    | none => some none
    | some td =>
      if td.numberAllowed && !td.validData env.parses .none then
        if td.validData env.parses (.num .pinf) && td.validData env.parses (.num .ninf) then none
        else if td.validData env.parses (.num .pinf) then some (some true)
        else if td.validData env.parses (.num .ninf) then some (some false)
        else some none
      else some none

/-- `max(min(x, flag), -flag)` (ticdatfactory.py:1067). -/
def clamp (q : Rat) (x : XNum) : XNum :=
  let m := if XNum.lt (.fin q) x then .fin q else x
  if XNum.lt m (.fin (-q)) then .fin (-q) else m

/-- `_infinity_flag_write_cell` (ticdatfactory.py:1053-1068).  NaN passes through `max(min(..))`. -/
def writeCell (env : TextEnv) (cf : IOConf) (t f : String) (x : Cell) : Option Cell :=
  if t = "parameters" ∧ cf.params ≠ [] then some (if x.isNull then .none else x)
  else
    match cf.flag with
    | .none => (infBias env cf t f).map (fun b =>
        match b with
        | some pos => if x = .num (infOf pos) then .none else x
        | none => x)
    | .num q =>
      match x with
      | .num y => some (.num (clamp q y))
      | x => some x
    | .na => some x

/-- `_general_read_cell` (ticdatfactory.py:1026-1052). -/
def readCell (env : TextEnv) (cf : IOConf) (t f : String) (x : Cell) : Option Cell :=
  if t = "parameters" then some x
  else
    let dt := cf.types.at t f
    match (if (dt.map (·.datetime)).getD false && !x.isNull then dateAdjust env x else none) with
    | some d => some (.dt d)
    | none =>
      let multi := (dt.map (fun td => !td.datetime && td.strings.truthy && td.numberAllowed)).getD false && cf.automunge
      let x := if multi then (toFloat env x).getD x else x
      match cf.flag with
      | .num q =>
        match x with
        | .num y =>
          if XNum.le (.fin q) y then some (.num .pinf)
          else if XNum.le y (.fin (-q)) then some (.num .ninf)
          else some x
        | x => some x
      | .none =>
        if x = .none then (infBias env cf t f).map (fun b =>
          match b with
          | some pos => .num (infOf pos)
          | none => x)
        else some x
      | .na => some x

/-- One entry of `_parameter_table_post_read_adjustment` (ticdatfactory.py:1096-1111). -/
def fixParam (env : TextEnv) (params : Params) (k v : Cell) : Cell :=
  let td := (PyDict.get? params k).bind (·.1)
  if (td.map (fun td => td.nullable && decide (v = .str "") && !td.validData env.parses v)).getD false then .none
  else if (td.map (·.datetime)).getD false then
    match dateAdjust env v with
    | some d => .dt d
    | none => v
  else if (td.map (·.numberAllowed)).getD true then (toFloat env v).getD v
  else v

/-- `_parameter_table_post_read_adjustment` (ticdatfactory.py:1084-1112) on the parameters table, given as a dictionary
from name to value (the row of its single data field).  The loop runs over a copy of the items and assigns under existing
keys. -/
def fixParams (env : TextEnv) (params : Params) (tbl : PyDict Cell Cell) : PyDict Cell Cell :=
  if params = [] then tbl
  else tbl.foldl (fun acc kv => PyDict.set acc kv.1 (fixParam env params kv.1 kv.2)) tbl

/-- `isinstance(k, str)`, which keyword expansion needs. -/
def Cell.isStr : Cell → Bool
  | .str _ => true
  | _ => false

/-- One entry of `defaults` in `create_full_parameters_dict` (ticdatfactory.py:1800-1802). -/
def paramDefault (env : TextEnv) (info : Option TypeDict × Cell) : Cell :=
  match dateAdjust env info.2, info.1 with
  | some d, some td => if td.datetime then .dt d else info.2
  | _, _ => info.2

/-- `create_full_parameters_dict` (ticdatfactory.py:1788-1803, pandatfactory.py:1495-1513): `dict(defaults, **table)`.
`none` is a raised exception: no parameters are declared, or (`TypeError: keywords must be strings`) a key of the table is
no string. -/
def fullParams (env : TextEnv) (params : Params) (tbl : PyDict Cell Cell) : Option (PyDict Cell Cell) :=
  if params = [] then none
  else
    let defaults : PyDict Cell Cell := params.foldl (fun acc kv =>
      PyDict.set acc kv.1 (paramDefault env kv.2)) []
    if tbl.all (fun kv => kv.1.isStr) then some (tbl.foldl (fun acc kv => PyDict.set acc kv.1 kv.2) defaults)
    else none

/-- `add_parameter` (ticdatfactory.py:334-387, pandatfactory.py:718-773) on a schema with a well formed parameters table and before first use:
`none` is a raised error.  `enforce = none` is `enforce_type_rules = False`. -/
def addParameter (env : TextEnv) (params : Params) (name default : Cell) (enforce : Option TypeArgs) : Option Params :=
  match enforce with
  | none => some (PyDict.set params name (none, default))
  | some a => do
    let td ← TypeDict.safeCreator a
    if td.validData env.parses default then some (PyDict.set params name (some td, default)) else none

end Ticdat
