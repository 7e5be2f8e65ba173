import Verif.Model.Pg
import Verif.Model.Graph
import Verif.Model.SqlText
/-!
# Creating the tables of a PostgreSQL schema (`write_schema`, pgtd.py)

The statements are modelled as data: `PgDecl` is one `CREATE TABLE`.  The second part of the file is a small model of
how PostgreSQL runs these statements; it is not ticdat code.
-/
namespace Ticdat

/-- The column types the code can ask for (pgtd.py:127-146, 206).  A forced type that is none of these is refused; the
model has no value for it. -/
inductive PgType where
  | text
  | integer
  | float
  | bool
  | boolean
  | timestamp
  | date
  | bytea
deriving DecidableEq, Repr

/-- The default of a column as it stands in the statement. -/
inductive PgLit where
  /-- `NULL`. -/
  | null
  /-- `'s'`: the text between quotes, as it is. -/
  | quoted (s : List Char)
  /-- The `str` of a value that is not a string. -/
  | bare (c : Cell)
deriving DecidableEq, Repr

/-- One column of a `CREATE TABLE`. -/
structure PgCol where
  name : List Char
  type : PgType
  notNull : Bool
  dflt : Option PgLit
deriving DecidableEq, Repr

/-- One `FOREIGN KEY (native..) REFERENCES table (foreign..)`. -/
structure PgRef where
  native : List (List Char)
  table : String
  foreign : List (List Char)
deriving DecidableEq, Repr

/-- One `CREATE TABLE`. -/
structure PgDecl where
  table : String
  columns : List PgCol
  primaryKey : List (List Char)
  refs : List PgRef
deriving DecidableEq, Repr

/-- The `forced_field_types` argument (pgtd.py:195-199). -/
abbrev Forced := PyDict (String × String) PgType

/-- `get_fld_type` (pgtd.py:124-146).  `none` is a raised exception: the `verify` of line 135, or the `TypeError` of adding
`None` to a string, since line 146 builds an error and does not raise it. -/
def pgFldType (cf : IOConf) (forced : Forced) (t f : String) (dflt : PgType) : Option PgType :=
  match PyDict.get? forced (t, f) with
  | some ty => some ty
  | none =>
    if t = "parameters" ∧ cf.params ≠ [] then some .text
    else
      match cf.types.at t f with
      | none => some dflt
      | some td =>
        if td.datetime then some .timestamp
        else if td.numberAllowed && td.strings.truthy then none
        else if td.strings.truthy then some .text
        else if td.numberAllowed then (if td.mustBeInt then some .integer else some .float)
        else none

/-- `bool(x)` of a default value. -/
def Cell.truth : Cell → Bool
  | .none => false
  | .bool b => b
  | .num x => !decide (x = .fin 0)
  | .str s => !decide (s = "")
  | _ => true

/-- `db_default` (pgtd.py:148-158). -/
def pgDefault (cf : IOConf) (forced : Forced) (t f : String) (d : Cell) : PgLit :=
  if PyDict.get? forced (t, f) = some .bool ∨ PyDict.get? forced (t, f) = some .boolean then .bare (.bool d.truth)
  else if d = .none ∨ d = .str "" then .null
  else
    match d, cf.flag with
    | .num .pinf, .num q => .bare (.num (.fin q))
    | .num .ninf, .num q => .bare (.num (.fin (-q)))
    | .str s, _ => .quoted s.toList
    | d, _ => .bare d

/-- `nullable` (pgtd.py:160-166). -/
def pgNullable (cf : IOConf) (t f : String) : Bool :=
  match cf.types.at t f with
  | none => true
  | some td => (td.numberAllowed && decide (cf.flag = .none)) || td.nullable

/-- `default_sql_str` (pgtd.py:168-174). -/
def pgDefaultSql (cf : IOConf) (forced : Forced) (t f : String) (d : Cell) : Option PgLit :=
  if PyDict.get? forced (t, f) = some .text ∧ d.stringish = true then some (pgDefault cf forced t f d)
  else if ((cf.types.at t f).map (·.datetime)).getD false = true ∨ PyDict.get? forced (t, f) = some .bytea then none
  else some (pgDefault cf forced t f d)

/-- `default_values[t][f]`: zero unless set (ticdatfactory.py:678-681). -/
def TabClass.dflt (c : TabClass) (f : String) : Cell := (PyDict.get? c.defaults f).getD (.num (.fin 0))

/-- The column of a primary key field (pgtd.py:178-179). -/
def pgKeyCol (cenv : CaseEnv) (cf : IOConf) (forced : Forced) (t f : String) : Option PgCol :=
  (pgFldType cf forced t f .text).map (fun ty => ⟨pgName cenv f.toList, ty, false, none⟩)

/-- The column of a data field (pgtd.py:180-182). -/
def pgDataCol (cenv : CaseEnv) (cf : IOConf) (forced : Forced) (t : String) (c : TabClass) (f : String) : Option PgCol :=
  (pgFldType cf forced t f .float).map (fun ty =>
    ⟨pgName cenv f.toList, ty, !pgNullable cf t f, pgDefaultSql cf forced t f (c.dflt f)⟩)

/-- The `FOREIGN KEY` clause of one foreign key (pgtd.py:185-188). -/
def pgRef (cenv : CaseEnv) (k : FK) : PgRef :=
  let m := PyDict.ofList k.mapping
  ⟨m.map (fun p => pgName cenv p.1.toList), k.foreign, m.map (fun p => pgName cenv p.2.toList)⟩

/-- The `CREATE TABLE` of one table (pgtd.py:177-190). -/
def pgDecl (cenv : CaseEnv) (cf : IOConf) (fks : List FK) (forced : Forced) (t : String) (c : TabClass) : Option PgDecl :=
  (c.pks.mapM (pgKeyCol cenv cf forced t)).bind (fun ks =>
    (c.dfs.mapM (pgDataCol cenv cf forced t c)).map (fun ds =>
      { table := t
        columns := ks ++ ds
        primaryKey := c.pks.map (fun f => pgName cenv f.toList)
        refs := (fks.filter (fun k => k.native = t)).map (pgRef cenv) }))

/-- `_get_schema_sql` for all tables (pgtd.py:120-191): the statements in the order of `_ordered_tables`.  The fuel of
`pgOrder` is always enough (`pg_order_spec`). -/
def pgSchemaSql (cenv : CaseEnv) (cf : IOConf) (fks : List FK) (forced : Forced) (schema : List (String × TabClass)) :
    Option (List PgDecl) :=
  (pgOrder fks (schema.map Prod.fst) (fks.length + 1)).bind (fun order =>
    order.mapM (fun t => (PyDict.get? schema t).bind (fun c => pgDecl cenv cf fks forced t c)))

/-! ### PostgreSQL (not ticdat code) -/

/-- Does PostgreSQL have an equality operator for a foreign key between columns of these types. -/
def PgType.comparable : PgType → PgType → Bool
  | .text, .text => true
  | .integer, .integer => true
  | .integer, .float => true
  | .float, .integer => true
  | .float, .float => true
  | .bool, .bool => true
  | .bool, .boolean => true
  | .boolean, .bool => true
  | .boolean, .boolean => true
  | .timestamp, .timestamp => true
  | .timestamp, .date => true
  | .date, .timestamp => true
  | .date, .date => true
  | .bytea, .bytea => true
  | _, _ => false

/-- Does PostgreSQL accept the default for a column of the type.  `reads ty s`: the text `s` is a literal of the type;
a number is converted to text, but not to a time or a truth value; a Boolean is converted to text only; `inf`, `nan` and
the `str` of a date are not literals at all.  A text that does not end at the closing quote is taken as an error. -/
def pgDefaultOk (reads : PgType → List Char → Bool) (ty : PgType) : PgLit → Bool
  | .null => true
  | .quoted s =>
    match readLit (s ++ [quote]) with
    | some (v, []) => decide (ty = .text) || reads ty v
    | _ => false
  | .bare (.num (.fin _)) => decide (ty = .text ∨ ty = .integer ∨ ty = .float)
  | .bare (.bool _) => decide (ty = .text ∨ ty = .bool ∨ ty = .boolean)
  | .bare _ => false

/-- The type of a column of a table. -/
def PgDecl.typeOf (d : PgDecl) (n : List Char) : Option PgType :=
  (d.columns.find? (fun c => c.name = n)).map PgCol.type

/-- Does PostgreSQL accept a foreign key of the table `d` when `cat` are the tables that exist: the other table exists (or
is `d`), the columns referred to are its primary key in some order, and the types can be compared. -/
def pgRefOk (cat : List PgDecl) (d : PgDecl) (r : PgRef) : Bool :=
  match (if r.table = d.table then some d else cat.find? (fun e => e.table = r.table)) with
  | none => false
  | some e =>
    decide (r.foreign.Nodup) && r.foreign.all (fun n => decide (n ∈ e.primaryKey)) &&
      e.primaryKey.all (fun n => decide (n ∈ r.foreign)) && decide (r.native.Nodup) &&
      (r.native.zip r.foreign).all (fun p =>
        match d.typeOf p.1, e.typeOf p.2 with
        | some a, some b => a.comparable b
        | _, _ => false)

/-- PostgreSQL runs one `CREATE TABLE`; `none` is an error. -/
def pgMake (reads : PgType → List Char → Bool) (cat : List PgDecl) (d : PgDecl) : Option (List PgDecl) :=
  if cat.any (fun e => e.table = d.table) then none
  else if !decide ((d.columns.map PgCol.name).Nodup) then none
  else if !(d.columns.all (fun c => (c.dflt.map (pgDefaultOk reads c.type)).getD true)) then none
  else if !(d.refs.all (pgRefOk cat d)) then none
  else some (cat ++ [d])

/-- PostgreSQL runs the statements one after the other. -/
def pgRun (reads : PgType → List Char → Bool) (cat : List PgDecl) (ds : List PgDecl) : Option (List PgDecl) :=
  ds.foldlM (pgMake reads) cat

/-! ### `write_schema` and `check_tables_fields` -/

/-- The keys of the forced types are fields of the factory (pgtd.py:204-210). -/
def goodForced (schema : List (String × TabClass)) (forced : Forced) : Bool :=
  forced.all (fun p =>
    match PyDict.get? schema p.1.1 with
    | some c => decide (p.1.2 ∈ c.fields)
    | none => false)

/-- The factory built for `include_ancillary_info=False` (pgtd.py:211-222): every field is a data field, data types,
default values and infinity flag are copied, the parameters and the foreign keys are not. -/
def noKeys (schema : List (String × TabClass)) : List (String × TabClass) :=
  schema.map (fun tc => (tc.1, ⟨[], tc.2.fields, tc.2.defaults⟩))

/-- The forced types for `include_ancillary_info=False` (pgtd.py:223-225): key fields with no data type are text, unless
forced to something else. -/
def noKeysForced (cf : IOConf) (schema : List (String × TabClass)) (forced : Forced) : Forced :=
  forced ++ (schema.flatMap (fun tc => (tc.2.pks.filter (fun f => (cf.types.at tc.1 f).isNone)).map
    (fun f => ((tc.1, f), PgType.text)))).filter (fun p => (PyDict.get? forced p.1).isNone)

/-- `write_schema` (pgtd.py:193-235): the tables of the database schema afterwards, `none` if an exception is raised.
Creating the database schema itself is not modelled. -/
def pgWriteSchema (reads : PgType → List Char → Bool) (cenv : CaseEnv) (reserved : List (List Char)) (cf : IOConf)
    (fks : List FK) (forced : Forced) (ancillary : Bool) (schema : List (String × TabClass)) (cat : List PgDecl) :
    Option (List PgDecl) :=
  if schema.all (fun tc => pgCompatible cenv reserved tc.1.toList (tc.2.fields.map String.toList)) &&
      goodForced schema forced then
    (if ancillary then pgSchemaSql cenv cf fks forced schema
      else pgSchemaSql cenv { cf with params := [] } [] (noKeysForced cf schema forced) (noKeys schema)).bind
        (pgRun reads cat)
  else none

/-- The loop of `check_tables_fields` over the fields of one table (pgtd.py:87-91): each field is exactly one column. -/
def pgFieldsOk (cenv : CaseEnv) (cols : List (List Char)) (c : TabClass) : Bool :=
  c.fields.all (fun f => decide ((cols.filter (fun n => n = pgName cenv f.toList)).length = 1))

/-- `check_tables_fields` (pgtd.py:66-100) on the tables and their columns: the missing tables; `none` if it raises. -/
def pgCheckTables (cenv : CaseEnv) (errorOnMissing : Bool) (schema : List (String × TabClass)) (cat : List PgDecl) :
    Option (List String) :=
  let found (tc : String × TabClass) := cat.find? (fun d => d.table = tc.1)
  if schema.all (fun tc =>
      match found tc with
      | some d => pgFieldsOk cenv (d.columns.map PgCol.name) tc.2
      | none => true) then
    let missing := (schema.filter (fun tc => (found tc).isNone)).map Prod.fst
    if !missing.isEmpty && errorOnMissing then none else some missing
  else none

/-! ### The text of the statements -/

/-- The type as it is written in the statement. -/
def PgType.name : PgType → String
  | .text => "text"
  | .integer => "integer"
  | .float => "float"
  | .bool => "bool"
  | .boolean => "boolean"
  | .timestamp => "timestamp"
  | .date => "date"
  | .bytea => "bytea"

/-- The text of a default (pgtd.py:148-158, 168-174); `shown` is Python's `str`. -/
def PgLit.txt (shown : Cell → String) : PgLit → String
  | .null => "NULL"
  | .quoted s => "'" ++ String.ofList s ++ "'"
  | .bare c => shown c

/-- The text of a column (pgtd.py:178-182). -/
def PgCol.txt (shown : Cell → String) (c : PgCol) : String :=
  String.ofList c.name ++ " " ++ c.type.name ++ (if c.notNull then " NOT NULL" else "") ++
    (match c.dflt with
      | some l => " DEFAULT " ++ l.txt shown
      | none => "")

/-- `','.join(map(_pg_name, ..))`. -/
def commaNames (l : List (List Char)) : String := String.intercalate "," (l.map String.ofList)

/-- The text of a `CREATE TABLE` (pgtd.py:177-190). -/
def PgDecl.txt (shown : Cell → String) (schemaName : String) (d : PgDecl) : String :=
  "CREATE TABLE " ++ schemaName ++ "." ++ d.table ++ " (\n" ++
    String.intercalate ",\n" (d.columns.map (PgCol.txt shown) ++
      (if d.primaryKey.isEmpty then [] else ["PRIMARY KEY (" ++ commaNames d.primaryKey ++ ")"]) ++
      d.refs.map (fun r => "FOREIGN KEY (" ++ commaNames r.native ++ ") REFERENCES " ++ schemaName ++ "." ++ r.table ++
        " (" ++ commaNames r.foreign ++ ")")) ++ "\n);"

end Ticdat
