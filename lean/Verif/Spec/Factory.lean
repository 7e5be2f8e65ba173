import Verif.Lemmas.Dict2
import Verif.Spec.FK
/-!
# Specification of factory states and full schemas
-/
namespace Ticdat.Spec
variable {V K : Type}

/-- Python `==` on dictionaries: the same keys with the same values, in any order. -/
def SameDict {A B : Type} [DecidableEq A] (a b : PyDict A B) : Prop := ∀ k, PyDict.get? a k = PyDict.get? b k

/-- The same entries `(table, field) ↦ value`.  (Tables with no entry at all are ignored.) -/
def SameDict2 {A B C : Type} [DecidableEq A] [DecidableEq B] (a b : PyDict A (PyDict B C)) : Prop :=
  ∀ j k, PyDict.get2 a j k = PyDict.get2 b j k

/-- Two results of `schema(include_ancillary_info=True)` say the same: tables with their fields, foreign keys, default
values, data types, parameters, flags and tooltips. -/
structure SameSchema (a b : FullSchema) : Prop where
  tables : SameDict a.tables b.tables
  fks : ∀ k, k ∈ a.fks ↔ k ∈ b.fks
  defaults : SameDict2 a.defaults b.defaults
  types : SameDict2 a.types b.types
  params : SameDict (a.params.getD []) (b.params.getD [])
  flag : a.flag = b.flag
  prune : a.prune = b.prune
  dups : a.dups = b.dups
  automunge : a.automunge = b.automunge
  tooltips : SameDict2 (a.tooltips.getD []) (b.tooltips.getD [])

/-- The entries are Python dictionaries: no key twice. -/
structure IsSchemaDict (a : FullSchema) : Prop where
  tables : (PyDict.keys a.tables).Nodup
  defaults : PyDict.IsDict2 a.defaults
  types : PyDict.IsDict2 a.types
  params : (PyDict.keys (a.params.getD [])).Nodup
  tooltips : PyDict.IsDict2 (a.tooltips.getD [])

/-- The factory states that the public calls lead to. -/
def Reachable (env : FactoryEnv) (f : Factory V K) : Prop :=
  ∃ (tables : PyDict String Decl) (f0 : Factory V K) (ops : List (FOp V K)),
    (PyDict.keys tables).Nodup ∧ newFactory env tables = some f0 ∧ FRun env f0 ops f

/-- `fld` is a field of the table `t`, which is not generic. -/
def HasField (tables : PyDict String Decl) (t fld : String) : Prop :=
  ∃ pks dfs, PyDict.get? tables t = some (.fields pks dfs) ∧ fld ∈ pks ++ dfs

/-- The parameters table: one primary key field and one data field. -/
def HasParamTable (tables : PyDict String Decl) : Prop :=
  ∃ pk df, PyDict.get? tables "parameters" = some (.fields [pk] [df])

/-- `fld` is a data field of the parameters table. -/
def ParamField (tables : PyDict String Decl) (t fld : String) : Prop :=
  t = "parameters" ∧ ∃ pks dfs, PyDict.get? tables t = some (.fields pks dfs) ∧ fld ∈ dfs

/-- A data type as `set_data_type` records it. -/
def GoodType (td : TypeDict) : Prop := TypeDict.safeCreator td.toArgs = some td

/-- A full schema that describes a factory. -/
structure ValidSchema (env : FactoryEnv) (fs : FullSchema) : Prop where
  dict : IsSchemaDict fs
  names : goodTableNames env.case ((PyDict.keys fs.tables).map String.toList) = true
  decls : ∀ p ∈ fs.tables, goodDecl env.case p.2 = true
  fks : ∀ k ∈ fs.fks, FKOK (plainTables fs.tables) k
  types : ∀ t fld td, PyDict.get2 fs.types t fld = some td → HasField fs.tables t fld ∧ GoodType td ∧
    (fs.params.getD [] ≠ [] → ¬ ParamField fs.tables t fld)
  defaults : ∀ t fld c, PyDict.get2 fs.defaults t fld = some c → HasField fs.tables t fld ∧ acceptableDefault c = true
  params : fs.params.getD [] ≠ [] → HasParamTable fs.tables
  param : ∀ p ∈ fs.params.getD [], p.1.stringish = true ∧ env.containerish p.2.2 = false ∧
    ∀ td, p.2.1 = some td → GoodType td ∧ td.validData env.text.parses p.2.2 = true
  flag : ∀ q, fs.flag = some (.num q) → 0 < q
  tooltips : ∀ t fld tip, PyDict.get2 (fs.tooltips.getD []) t fld = some tip →
    PyDict.has fs.tables t = true ∧ (fld = "" ∨ HasField fs.tables t fld) ∧ tip ≠ ""

end Ticdat.Spec
