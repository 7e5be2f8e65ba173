import Verif.Spec.DataType
import Verif.Spec.PanFK
import Verif.Model.PanTypes
/-! # Specification of data type failures of pandas data objects -/
namespace Ticdat.Spec

/-- Every DataFrame has the columns of its table. -/
def PanOK (s : Schema) (db : PanDB Cell) : Prop :=
  ∀ t ∈ PyDict.keys s, ∀ r ∈ db t, ∀ f ∈ s.pks t ++ s.dfs t, ∃ v, r f = some v

/-- The positions of the flags that are set. -/
def flagged (flags : List Bool) : List Nat := (List.range flags.length).filter (fun i => flags[i]? = some true)

/-- The reported cells, `(table, field)` and row position, in the order of the result. -/
def reported (d : PyDict (String × String) (List Bool)) : List ((String × String) × Nat) :=
  d.flatMap (fun p => (flagged p.2).map (fun i => (p.1, i)))

/-- The value that replaces bad cells of a field: the given replacement, else the default of the field if it has one. -/
def panReplacement (defaults : PyDict String (PyDict String Cell)) (repl : PyDict (String × String) Cell)
    (t f : String) : Option Cell :=
  match repl.lookup (t, f) with
  | some v => some v
  | none => (defaults.lookup t).bind (fun r => r.lookup f)

/-- A bad cell. -/
def PanBad (parses : Cell → Bool) (s : Schema) (dts : DataTypes) (t f : String) (r : PRow Cell) : Prop :=
  ∃ v, r f = some v ∧ BadCell parses s dts t f v

end Ticdat.Spec

namespace Ticdat.Spec
variable (parses : Cell → Bool) (s : Schema) (dts : DataTypes) (defaults : PyDict String (PyDict String Cell))
  (repl : PyDict (String × String) Cell) (db : PanDB Cell)

/-- A replacement is given for something that is not a field of the schema. -/
def UnknownField : Prop := ∃ p ∈ repl, ¬ (p.1.1 ∈ PyDict.keys s ∧ p.1.2 ∈ s.pks p.1.1 ++ s.dfs p.1.1)

/-- Some cell of the data object is bad. -/
def AnyBad : Prop := ∃ t f, ∃ r ∈ db t, PanBad parses s dts t f r

/-- A replacement is given for a field that has a type, or is a primary key field, and has no default value. -/
def NoDefault : Prop := ∃ t f, (typeOf dts t f ≠ none ∨ f ∈ s.pks t) ∧ repl.lookup (t, f) ≠ none ∧
  (defaults.lookup t).bind (fun r => r.lookup f) = none

/-- A field with a bad cell has a replacement that is itself bad. -/
def BadReplacement : Prop := ∃ t f v, (∃ r ∈ db t, PanBad parses s dts t f r) ∧
  panReplacement defaults repl t f = some v ∧ BadCell parses s dts t f v

/-- `db'` is `db` with the bad cells of the fields that have a replacement replaced, and nothing else changed. -/
def PanRepaired (db' : PanDB Cell) : Prop := ∀ t, (db' t).length = (db t).length ∧
  ∀ (i : Nat) r, (db t)[i]? = some r → ∃ r', (db' t)[i]? = some r' ∧ ∀ f,
    (PanBad parses s dts t f r → ∀ v, panReplacement defaults repl t f = some v → r' f = some v) ∧
    (¬ (PanBad parses s dts t f r ∧ (panReplacement defaults repl t f).isSome) → r' f = r f)

end Ticdat.Spec
