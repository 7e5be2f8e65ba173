import Verif.Spec.PanFK
import Verif.Model.FKReport
/-! # What the keys and values of foreign key reports stand for -/
namespace Ticdat.Spec
variable {V : Type}

/-- The namedtuple stands for the foreign key: same tables, same pairs of fields, and its cardinality. -/
def HighNames (s : Schema) (k : FK) (key : HighKey) : Prop :=
  key.native = k.native ∧ key.foreign = k.foreign ∧ key.cardinality = cardinality s k ∧
    match key.mapping with
    | .one a b => k.mapping = [(a, b)]
    | .many l => k.mapping = l ∧ l.length ≠ 1

/-- The plain tuple stands for the foreign key: same tables and same pairs of fields. -/
def LowNames (k : FK) (key : LowKey) : Prop :=
  key.native = k.native ∧ key.foreign = k.foreign ∧
    match key.mapping with
    | .fields a b => k.mapping = [(a, b)]
    | .pairs l => k.mapping = l ∧ l.length ≠ 1

/-- A report says of each foreign key what `found` says, under exactly one name. -/
def ReportSays {R : Type} (s : Schema) (found : FK → R → Prop) : FKReport R → Prop
  | .high d => (PyDict.keys d).Nodup ∧ ∀ key v, PyDict.get? d key = some v ↔ ∃ k, HighNames s k key ∧ found k v
  | .low d => (PyDict.keys d).Nodup ∧ ∀ key v, PyDict.get? d key = some v ↔ ∃ k, LowNames k key ∧ found k v

/-- The form asked for. -/
def ReportForm {R : Type} (verbosity : String) : FKReport R → Prop
  | .high _ => verbosity = "High"
  | .low _ => verbosity = "Low"

open Classical in
/-- The rows of the native table that fail, in their order. -/
noncomputable def failingRows (db : PanDB V) (k : FK) : List (PRow V) := (db k.native).filter (fun r => decide (PanFails db k r))

end Ticdat.Spec
