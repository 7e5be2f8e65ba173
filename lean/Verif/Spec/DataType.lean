import Verif.Model.DataType
import Verif.Spec.FK
/-!
# Specification of data types

What it means for a value to be valid, and which cells of a data object are data type failures; written without the
checking functions of the model.
-/
namespace Ticdat.Spec

/-- The order of numbers with infinities. -/
inductive XLt : XNum → XNum → Prop
  | below {q : Rat} : XLt .ninf (.fin q)
  | all : XLt .ninf .pinf
  | above {q : Rat} : XLt (.fin q) .pinf
  | fin {a b : Rat} : a < b → XLt (.fin a) (.fin b)

/-- Within the bounds, each inclusive or not. -/
def InRange (td : TypeDict) (x : XNum) : Prop :=
  (XLt td.min x ∨ (td.inclusiveMin = true ∧ x = td.min)) ∧ (XLt x td.max ∨ (td.inclusiveMax = true ∧ x = td.max))

/-- An integral number. -/
def IsInt (x : XNum) : Prop := ∃ n : Int, x = .fin n

/-- `None`, NaN. -/
def Null (c : Cell) : Prop := c = .none ∨ c = .nan

/-- The documented rule (docstring of `set_data_type`, ticdatfactory.py:192-226).  An inclusive infinite maximum admits
infinity even for integers. -/
def Valid (parses : Cell → Bool) (td : TypeDict) (c : Cell) : Prop :=
  (Null c ∧ td.nullable = true) ∨
  (¬ Null c ∧ td.datetime = true ∧ ((∃ d, c = .dt d) ∨ parses c = true)) ∨
  (td.datetime = false ∧ ∃ x, c = .num x ∧ td.numberAllowed = true ∧ InRange td x ∧
    (td.mustBeInt = true → IsInt x ∨ (x = .pinf ∧ td.max = .pinf ∧ td.inclusiveMax = true))) ∨
  (td.datetime = false ∧ ∃ s, c = .str s ∧ (td.strings = .any ∨ ∃ l, td.strings = .oneOf l ∧ s ∈ l))

/-- The declared data types refer to tables and fields of the schema (ticdatfactory.py:229-236). -/
structure TypesOK (s : Schema) (dts : DataTypes) : Prop where
  tables_nodup : (PyDict.keys dts).Nodup
  fields_nodup : ∀ t r, (t, r) ∈ dts → (PyDict.keys r).Nodup
  tables : ∀ t ∈ PyDict.keys dts, t ∈ PyDict.keys s
  fields : ∀ t r, (t, r) ∈ dts → ∀ f ∈ PyDict.keys r, f ∈ s.pks t ++ s.dfs t

/-- The type declared for a field. -/
def typeOf (dts : DataTypes) (t f : String) : Option TypeDict := (dts.lookup t).bind (fun r => r.lookup f)

/-- Value `v` of field `f` of table `t` is a data type failure: it breaks the declared type; or the field is a primary
key field with no type and `v` is neither a number nor a string. -/
def BadCell (parses : Cell → Bool) (s : Schema) (dts : DataTypes) (t f : String) (v : Cell) : Prop :=
  (∃ td, typeOf dts t f = some td ∧ ¬ Valid parses td v) ∨
  (typeOf dts t f = none ∧ f ∈ s.pks t ∧ ¬ ((∃ x, v = .num x) ∨ ∃ w, v = .str w))

end Ticdat.Spec

namespace Ticdat.Spec

/-- The value that replaces bad cells of a field: the given replacement, else the field's default, else 0
(docstring of `replace_data_type_failures`, ticdatfactory.py:1916-1931). -/
def replacement (defaults : PyDict String (PyDict String Cell)) (repl : PyDict (String × String) Cell)
    (t f : String) : Cell :=
  match repl.lookup (t, f) with
  | some v => v
  | none =>
    match (defaults.lookup t).bind (fun r => r.lookup f) with
    | some v => v
    | none => .num (.fin 0)

/-- A data cell that `replace_data_type_failures` is to replace: field `f` of table `t` is a data field with a type that
`v` breaks. -/
def Repairable (parses : Cell → Bool) (s : Schema) (dts : DataTypes) (t f : String) (v : Cell) : Prop :=
  f ∈ s.dfs t ∧ ∃ td, typeOf dts t f = some td ∧ ¬ Valid parses td v

end Ticdat.Spec
