import Verif.Model.PgSchema
import Verif.Spec.DataType
import Verif.Spec.Graph
/-!
# Specification of the PostgreSQL tables of a factory

Which column type a field gets, when a factory can be written as a PostgreSQL schema, and what the tables look like.
-/
namespace Ticdat.Spec

/-- The names can be used in PostgreSQL without quoting: table names are their own PostgreSQL names, the fields of a table
stay distinct, and no field is a reserved word up to case. -/
def PgNames (cenv : CaseEnv) (reserved : List (List Char)) (schema : List (String × TabClass)) : Prop :=
  ∀ t c, (t, c) ∈ schema → pgName cenv t.toList = t.toList ∧ ((c.pks ++ c.dfs).map (fun f => pgName cenv f.toList)).Nodup ∧
    ∀ f ∈ c.pks ++ c.dfs, cenv.lower f.toList ∉ reserved

/-- The field is one of the parameters table and the factory has declared parameters. -/
def PgParam (cf : IOConf) (t : String) : Prop := t = "parameters" ∧ cf.params ≠ []

/-- The documented column type of a field (docstring of `write_schema`, pgtd.py:192-203): the forced one, otherwise inferred
from the data type; without data type key fields are text and data fields are floats.  A field whose data type admits both
numbers and strings, or neither, has no column type. -/
inductive ColType (cf : IOConf) (forced : Forced) (t f : String) (key : Bool) : PgType → Prop
  | forced {ty : PgType} : forced.lookup (t, f) = some ty → ColType cf forced t f key ty
  | param : forced.lookup (t, f) = none → PgParam cf t → ColType cf forced t f key .text
  | key : forced.lookup (t, f) = none → ¬ PgParam cf t → typeOf cf.types t f = none → key = true →
      ColType cf forced t f key .text
  | data : forced.lookup (t, f) = none → ¬ PgParam cf t → typeOf cf.types t f = none → key = false →
      ColType cf forced t f key .float
  | datetime {td : TypeDict} : forced.lookup (t, f) = none → ¬ PgParam cf t → typeOf cf.types t f = some td →
      td.datetime = true → ColType cf forced t f key .timestamp
  | strings {td : TypeDict} : forced.lookup (t, f) = none → ¬ PgParam cf t → typeOf cf.types t f = some td →
      td.datetime = false → td.strings ≠ .oneOf [] → td.numberAllowed = false → ColType cf forced t f key .text
  | int {td : TypeDict} : forced.lookup (t, f) = none → ¬ PgParam cf t → typeOf cf.types t f = some td →
      td.datetime = false → td.strings = .oneOf [] → td.numberAllowed = true → td.mustBeInt = true →
      ColType cf forced t f key .integer
  | float {td : TypeDict} : forced.lookup (t, f) = none → ¬ PgParam cf t → typeOf cf.types t f = some td →
      td.datetime = false → td.strings = .oneOf [] → td.numberAllowed = true → td.mustBeInt = false →
      ColType cf forced t f key .float

/-- Columns of two types can be compared when they are both texts, both numbers, both truth values, both times or both
bytes. -/
inductive SameFamily : PgType → PgType → Prop
  | text : SameFamily .text .text
  | number {a b : PgType} : a ∈ [PgType.integer, .float] → b ∈ [PgType.integer, .float] → SameFamily a b
  | truth {a b : PgType} : a ∈ [PgType.bool, .boolean] → b ∈ [PgType.bool, .boolean] → SameFamily a b
  | time {a b : PgType} : a ∈ [PgType.timestamp, .date] → b ∈ [PgType.timestamp, .date] → SameFamily a b
  | bytes : SameFamily .bytea .bytea

/-- No default is written for the field: it is a date or time, or forced to bytes; but a field forced to text keeps a
string default. -/
def PgNoDefault (cf : IOConf) (forced : Forced) (t f : String) (d : Cell) : Prop :=
  ¬ (forced.lookup (t, f) = some .text ∧ ∃ s, d = .str s) ∧
    ((∃ td, typeOf cf.types t f = some td ∧ td.datetime = true) ∨ forced.lookup (t, f) = some .bytea)

/-- The default value `d` of a field can be the default of its column of type `ty`. -/
def DefaultFits (reads : PgType → List Char → Bool) (cf : IOConf) (forced : Forced) (t f : String) (ty : PgType) (d : Cell) :
    Prop :=
  PgNoDefault cf forced t f d ∨ ty ∈ [PgType.bool, .boolean] ∨ d = .none ∨ d = .str "" ∨
  (∃ s v, d = .str s ∧ readLit (s.toList ++ [quote]) = some (v, []) ∧ (ty = .text ∨ reads ty v = true)) ∨
  (∃ x, d = .num x ∧ ((∃ q, x = .fin q) ∨ ∃ q, cf.flag = .num q) ∧ ty ∈ [PgType.text, .integer, .float]) ∨
  (∃ b, d = .bool b ∧ ty = .text)

/-- The foreign key refers to the whole primary key of the foreign table, each field once, and the columns can be
compared. -/
def PgKeyMatch (cf : IOConf) (forced : Forced) (schema : List (String × TabClass)) (k : FK) : Prop :=
  ∀ cn ct, (k.native, cn) ∈ schema → (k.foreign, ct) ∈ schema →
    (k.mapping.map Prod.snd).Nodup ∧ (∀ f, f ∈ k.mapping.map Prod.snd ↔ f ∈ ct.pks) ∧
    ∀ p ∈ k.mapping, ∃ a b, ColType cf forced k.native p.1 (decide (p.1 ∈ cn.pks)) a ∧
      ColType cf forced k.foreign p.2 (decide (p.2 ∈ ct.pks)) b ∧ SameFamily a b

/-- The foreign keys are as `add_foreign_key` leaves them: between tables and fields of the factory, a native field at
most once. -/
def FksOK (schema : List (String × TabClass)) (fks : List FK) : Prop :=
  ∀ k ∈ fks, (∃ cn ct, (k.native, cn) ∈ schema ∧ (k.foreign, ct) ∈ schema ∧
    ∀ p ∈ k.mapping, p.1 ∈ cn.pks ++ cn.dfs ∧ p.2 ∈ ct.pks ++ ct.dfs) ∧ (k.mapping.map Prod.fst).Nodup

/-- The forced types are for fields of the factory. -/
def ForcedOK (schema : List (String × TabClass)) (forced : Forced) : Prop :=
  ∀ p ∈ forced, ∃ c, (p.1.1, c) ∈ schema ∧ p.1.2 ∈ c.pks ++ c.dfs

/-- The column is required to be non-null exactly if the field has a data type that is not nullable, unless infinities of
a number field are stored as nulls. -/
def Required (cf : IOConf) (t f : String) : Prop :=
  ∃ td, typeOf cf.types t f = some td ∧ td.nullable = false ∧ ¬ (td.numberAllowed = true ∧ cf.flag = .none)

/-- The table of a factory's table: one column per field, keys first, in order; the primary key; the foreign keys. -/
structure DeclFor (cenv : CaseEnv) (cf : IOConf) (fks : List FK) (forced : Forced) (t : String) (c : TabClass) (d : PgDecl) :
    Prop where
  table : d.table = t
  names : d.columns.map PgCol.name = (c.pks ++ c.dfs).map (fun f => pgName cenv f.toList)
  types : ∀ f ∈ c.pks ++ c.dfs, ∀ col ∈ d.columns, col.name = pgName cenv f.toList →
    ColType cf forced t f (decide (f ∈ c.pks)) col.type
  required : ∀ f ∈ c.pks ++ c.dfs, ∀ col ∈ d.columns, col.name = pgName cenv f.toList →
    (col.notNull = true ↔ f ∈ c.dfs ∧ Required cf t f)
  noDefault : ∀ f ∈ c.pks ++ c.dfs, ∀ col ∈ d.columns, col.name = pgName cenv f.toList →
    (col.dflt = none ↔ f ∈ c.pks ∨ PgNoDefault cf forced t f ((c.defaults.lookup f).getD (.num (.fin 0))))
  key : d.primaryKey = c.pks.map (fun f => pgName cenv f.toList)
  refs : d.refs = (fks.filter (fun k => k.native = t)).map (fun k =>
    ⟨k.mapping.map (fun p => pgName cenv p.1.toList), k.foreign, k.mapping.map (fun p => pgName cenv p.2.toList)⟩)

end Ticdat.Spec

namespace Ticdat.Spec

/-- The column can hold the value: a null if it is neither required nor part of the primary key; a text, an integer, a
number, a point in time according to its type. -/
def PgHolds (col : PgCol) (key : Bool) (x : Cell) : Prop :=
  (x = .none ∧ col.notNull = false ∧ key = false) ∨
  (col.type = .text ∧ ∃ s, x = .str s) ∨
  (col.type = .integer ∧ ∃ y, x = .num y ∧ IsInt y) ∨
  (col.type = .float ∧ ∃ y, x = .num y) ∨
  (col.type = .timestamp ∧ ∃ d, x = .dt d)

end Ticdat.Spec
