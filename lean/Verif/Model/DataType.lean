import Verif.Model.Cell
import Verif.Model.Group
/-!
# Data types: `TypeDictionary`, `find_data_type_failures`, `replace_data_type_failures`
-/
namespace Ticdat

/-- `strings_allowed` of a data type: `'*'` or a tuple of strings (utils.py:292-295). -/
inductive Strings where
  | any
  | oneOf (l : List String)
deriving DecidableEq, Repr

/-- `TypeDictionary` (utils.py:266-268). -/
structure TypeDict where
  numberAllowed : Bool
  inclusiveMin : Bool
  inclusiveMax : Bool
  min : XNum
  max : XNum
  mustBeInt : Bool
  strings : Strings
  nullable : Bool
  datetime : Bool
deriving DecidableEq, Repr

/-- `valid_data` (utils.py:269-297).  `parses c` stands for "`dateutil_adjuster(c)` returns an object whose `repr` does
not raise" (utils.py:231-256, 278-279); pandas and dateutil are not modelled, so it is an arbitrary function.
Containers as cell values, for which `pd.isnull` is not a scalar, are not modelled. -/
def TypeDict.validData (parses : Cell → Bool) (td : TypeDict) (c : Cell) : Bool :=
  if c.isNull then td.nullable
  else if td.datetime then
    match c with
    | .dt _ => true
    | c => parses c
  else
    match c with
    | .num x =>
      if !td.numberAllowed then false
      else if XNum.lt x td.min || XNum.lt td.max x then false
      else if !td.inclusiveMin && decide (x = td.min) then false
      else if !td.inclusiveMax && decide (x = td.max) then false
      else if td.mustBeInt && !x.isInt && !(decide (x = td.max) && decide (td.max = .pinf) && td.inclusiveMax) then false
      else true
    | .str s =>
      match td.strings with
      | .any => true
      | .oneOf l => decide (s ∈ l)
    | _ => false

/-- The `strings_allowed` argument: `'*'`, a container of values, or something else. -/
inductive StringsArg where
  | star
  | coll (l : List Cell)
  | bad
deriving DecidableEq, Repr

/-- The arguments of `set_data_type` and `safe_creator` (utils.py:300-301); truthy arguments are Booleans. -/
structure TypeArgs where
  numberAllowed : Bool
  inclusiveMin : Bool
  inclusiveMax : Bool
  min : Cell
  max : Cell
  mustBeInt : Bool
  strings : StringsArg
  nullable : Bool
  datetime : Bool
deriving DecidableEq, Repr

/-- All strings of a container, or `none` if some element is not `stringish` (utils.py:308-310). -/
def allStrings : List Cell → Option (List String)
  | [] => some []
  | .str s :: rest => (allStrings rest).map (s :: ·)
  | _ :: _ => none

/-- `safe_creator` (utils.py:299-321); `none` is a raised `TicDatError`.  Assumes dateutil or pandas is present. -/
def TypeDict.safeCreator (a : TypeArgs) : Option TypeDict :=
  if a.datetime then
    some ⟨false, true, true, .fin 0, .pinf, false, .oneOf [], a.nullable, true⟩
  else do
    let strings ← match a.strings with
      | .star => some Strings.any
      | .coll l => (allStrings l).map Strings.oneOf
      | .bad => none
    if a.numberAllowed then
      match a.max, a.min with
      | .num mx, .num mn =>
        if XNum.le mn mx then
          some ⟨true, a.inclusiveMin, a.inclusiveMax, mn, mx, a.mustBeInt, strings, a.nullable, false⟩
        else none
      | _, _ => none    -- not numericish, or NaN: `max >= min` is false
    else some ⟨false, true, true, .fin 0, .pinf, false, strings, a.nullable, false⟩

/-- The arguments that record an existing data type (as `create_from_full_schema` passes them,
ticdatfactory.py:130-132). -/
def TypeDict.toArgs (td : TypeDict) : TypeArgs :=
  ⟨td.numberAllowed, td.inclusiveMin, td.inclusiveMax, .num td.min, .num td.max, td.mustBeInt,
    match td.strings with
    | .any => .star
    | .oneOf l => .coll (l.map Cell.str), td.nullable, td.datetime⟩

/-- `_data_types` of a factory: table to field to type (ticdatfactory.py:637). -/
abbrev DataTypes := PyDict String (PyDict String TypeDict)

/-- `_data_types.get(t, {}).get(f)`. -/
def DataTypes.at (dts : DataTypes) (t f : String) : Option TypeDict :=
  (PyDict.get? dts t).bind (fun r => PyDict.get? r f)

/-- The temporary type given to primary key fields with no type (ticdatfactory.py:1879-1881). -/
def notNullType : TypeDict := ⟨true, true, true, .ninf, .pinf, false, .any, false, false⟩

/-- `tmp_tdf._data_types` (ticdatfactory.py:1874-1881): the declared types, and `notNullType` for each untyped primary
key field.  The copy of the factory made by `create_from_full_schema` is taken to have the same types (C18). -/
def tmpTypes (s : Schema) (dts : DataTypes) : DataTypes :=
  (s.flatMap (fun p => p.2.pks.map (fun f => (p.1, f)))).foldl
    (fun d p => if (DataTypes.at dts p.1 p.2).isSome then d
      else d.set p.1 (((PyDict.get? d p.1).getD []).set p.2 notNullType)) dts

/-- `_get_full_row` (ticdatfactory.py:1832-1839): the data row as a dictionary, then the key fields.  For a table with no
primary key the data row itself is used (ticdatfactory.py:1899-1901). -/
def fullRow {V : Type} (ts : TSchema) (pk : PKey V) (row : List V) : PyDict String V :=
  let d := PyDict.ofList (ts.dfs.zip row)
  match pk with
  | .one v =>
    match ts.pks with
    | [f] => d.set f v
    | _ => d
  | .many vs => (ts.pks.zip vs).foldl (fun d p => d.set p.1 p.2) d
  | .idx _ => d

/-- One recorded failure: `((table, field), row key, value)`. -/
abbrev TypeEvent := (String × String) × PKey Cell × Cell

/-- One test of the loop: `if not data_type.valid_data(full_row[field])` (ticdatfactory.py:1890-1896, 1899-1906); a
missing field raises `KeyError`. -/
def typeCheck (parses : Cell → Bool) (s : Schema) (t : String) (item : PKey Cell × List Cell)
    (ft : String × TypeDict) : Option (Option TypeEvent) :=
  match PyDict.get? (fullRow ⟨s.pks t, s.dfs t⟩ item.1 item.2) ft.1 with
  | none => none
  | some v => some (if ft.2.validData parses v then none else some ((t, ft.1), item.1, v))

/-- The tests in the order of the three nested loops (ticdatfactory.py:1886-1906). -/
def typeChecks (parses : Cell → Bool) (s : Schema) (dts : DataTypes) (db : DB Cell) :
    List (Option (Option TypeEvent)) :=
  (tmpTypes s dts).flatMap (fun tr => (db tr.1).items.flatMap (fun item =>
    tr.2.map (fun ft => typeCheck parses s tr.1 item ft)))

/-- `find_data_type_failures(tic_dat, max_failures=lim)` (ticdatfactory.py:1840-1914): `(table, field)` to `bad_values` and
`pks`.  `bad_values` is a set up to `==`. -/
def findTypes (parses : Cell → Bool) (s : Schema) (dts : DataTypes) (db : DB Cell) (lim : Option Nat) :
    Option (PyDict (String × String) (List Cell × List (PKey Cell))) := do
  let evs ← scanChecks lim (typeChecks parses s dts db) []
  let values := groupBy Cell.pyEq (evs.reverse.map (fun e => (e.1, e.2.2)))
  let pks := groupBy (fun a b => decide (a = b)) (evs.reverse.map (fun e => (e.1, e.2.1)))
  return values.map (fun p => (p.1, p.2, (pks.get? p.1).getD []))

/-- Replace every row by a function of its key and its data row. -/
def TableData.mapItems {V : Type} (g : PKey V → List V → List V) : TableData V → TableData V
  | .dict rows => .dict (rows.map (fun p => (p.1, g p.1 p.2)))
  | .list rows => .list (rows.mapIdx (fun i r => g (.idx i) r))

/-- `getattr(tic_dat, t)[pk][field] = v` (ticdatfactory.py:1959) for a row that is present; keys are unique, so at most one
row changes.  Rows do not share storage (every assignment builds a new row, utils.py:1050-1109). -/
def setCell (s : Schema) (db : DB Cell) (t : String) (pk : PKey Cell) (f : String) (v : Cell) : Option (DB Cell) :=
  if (db t).items.any (fun p => decide (p.1 = pk)) ∧ f ∈ s.dfs t then
    some (fun t' => if t' = t then
      (db t).mapItems (fun k r => if k = pk then r.set ((s.dfs t).idxOf f) v else r) else db t')
  else none

/-- `replacement_values.get((table, field), self._default_values.get(table, {}).get(field, 0))`
(ticdatfactory.py:1947-1948). -/
def replacementFor (defaults : PyDict String (PyDict String Cell)) (repl : PyDict (String × String) Cell)
    (t f : String) : Cell :=
  match repl.get? (t, f) with
  | some v => v
  | none => (((PyDict.get? defaults t).bind (fun r => PyDict.get? r f))).getD (.num (.fin 0))

/-- `real_replacements` (ticdatfactory.py:1943-1948). -/
def realReplacements (s : Schema) (dts : DataTypes) (defaults : PyDict String (PyDict String Cell))
    (repl : PyDict (String × String) Cell) : List ((String × String) × Cell) :=
  dts.flatMap (fun tr => (tr.2.filter (fun ft => decide (ft.1 ∉ s.pks tr.1))).map
    (fun ft => ((tr.1, ft.1), replacementFor defaults repl tr.1 ft.1)))

/-- The assignments (ticdatfactory.py:1955-1959). -/
def applyAll (s : Schema) : List ((String × String) × PKey Cell × Cell) → DB Cell → Option (DB Cell)
  | [], db => some db
  | ((t, f), pk, v) :: rest, db => do
    let db' ← setCell s db t pk f v
    applyAll s rest db'

/-- Outcome of `replace_data_type_failures`: refused before any change, some other exception, or done. -/
inductive ReplaceResult where
  | refused
  | crashed
  | done (db : DB Cell)

/-- `replace_data_type_failures` (ticdatfactory.py:1916-1961).  `refused` is the `TicDatError` of 1951-1953 (or of
1936-1939), raised before any cell is changed; `crashed` is any other exception, including the final assertion. -/
def replaceTypes (parses : Cell → Bool) (s : Schema) (dts : DataTypes)
    (defaults : PyDict String (PyDict String Cell)) (repl : PyDict (String × String) Cell) (db : DB Cell) :
    ReplaceResult :=
  if repl.any (fun p => !(decide (p.1.1 ∈ PyDict.keys s) && decide (p.1.2 ∈ s.dfs p.1.1))) then .refused else
  match findTypes parses s dts db none with
  | none => .crashed
  | some [] => .done db
  | some needed =>
    let rr := realReplacements s dts defaults repl
    if rr.any (fun p => (PyDict.get? needed p.1).isSome &&
        !(match DataTypes.at dts p.1.1 p.1.2 with
          | some td => td.validData parses p.2
          | none => true)) then .refused
    else
      match applyAll s (needed.flatMap (fun n => match PyDict.get? rr n.1 with
          | some v => n.2.2.map (fun pk => (n.1, pk, v))
          | none => [])) db with
      | none => .crashed
      | some db' =>
        match findTypes parses s dts db' none with
        | none => .crashed
        | some left => if left.any (fun n => (PyDict.get? rr n.1).isSome) then .crashed else .done db'

end Ticdat
