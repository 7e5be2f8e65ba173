import Verif.Model.Schema
/-!
# Specification of foreign keys, in terms of records

A record is a mapping from field names to values.  This file says what a schema, a good data object, a foreign
key and a foreign key failure are, without using any function of the model of the algorithms.
-/
namespace Ticdat.Spec
variable {V : Type}

/-- A record: field name to value. -/
abbrev Rec (V : Type) := String → Option V

/-- Field names are distinct within a table, table names are distinct
(ticdatfactory.py:653-671). -/
structure SchemaOK (s : Schema) : Prop where
  tables_nodup : (PyDict.keys s).Nodup
  fields_nodup : ∀ t, (s.pks t ++ s.dfs t).Nodup

/-- The key of a row has the right shape: a scalar for a one-field primary key, a tuple of the right length for
a longer one (ticdatfactory.py:703-717, 1237-1249). -/
def KeyOK (n : Nat) : PKey V → Prop
  | .one _ => n = 1
  | .many vs => vs.length = n ∧ 1 < n
  | .idx _ => False

/-- A table of a good data object (ticdatfactory.py:1118-1287): keyed tables are dictionaries with one row per
key, others are lists; every row has one value per data field. -/
def TableOK (ts : TSchema) : TableData V → Prop
  | .dict rows => ts.pks ≠ [] ∧ (rows.map Prod.fst).Nodup ∧
      ∀ p ∈ rows, KeyOK ts.pks.length p.1 ∧ p.2.length = ts.dfs.length
  | .list rows => ts.pks = [] ∧ ∀ r ∈ rows, r.length = ts.dfs.length

/-- A good data object for a schema. -/
def DBOK (s : Schema) (db : DB V) : Prop :=
  ∀ t ts, (t, ts) ∈ s → TableOK ts (db t)

/-- The values of the key fields of a row. -/
def keyVals : PKey V → List V
  | .one v => [v]
  | .many vs => vs
  | .idx _ => []

/-- The record of a row: key fields from the key, data fields from the data row. -/
def recOf (ts : TSchema) (pk : PKey V) (row : List V) : Rec V :=
  fun f => ((ts.pks.zip (keyVals pk)) ++ (ts.dfs.zip row)).lookup f

/-- The addressed records of a table. -/
def rows (ts : TSchema) : TableData V → List (PKey V × Rec V)
  | .dict rs => rs.map (fun p => (p.1, recOf ts p.1 p.2))
  | .list rs => rs.zipIdx.map (fun p => (.idx p.2, recOf ts (.idx p.2) p.1))

/-- A declared foreign key refers to tables and fields of the schema and maps each native field once
(ticdatfactory.py:558-581). -/
structure FKOK (s : Schema) (k : FK) : Prop where
  native_mem : k.native ∈ PyDict.keys s
  foreign_mem : k.foreign ∈ PyDict.keys s
  nonempty : k.mapping ≠ []
  native_nodup : (k.mapping.map Prod.fst).Nodup
  native_fields : ∀ p ∈ k.mapping, p.1 ∈ s.pks k.native ++ s.dfs k.native
  foreign_fields : ∀ p ∈ k.mapping, p.2 ∈ s.pks k.foreign ++ s.dfs k.foreign

/-- No foreign field is the target of two native fields. -/
def ForeignDistinct (k : FK) : Prop := (k.mapping.map Prod.snd).Nodup

/-- Record `r` of the native table agrees with record `r'` of the foreign table. -/
def Agrees (m : List (String × String)) (r r' : Rec V) : Prop := ∀ p ∈ m, r p.1 = r' p.2

/-- The schema entry of a table. -/
def tableOf (s : Schema) (t : String) : TSchema := ⟨s.pks t, s.dfs t⟩

/-- Row `r` of the native table of `k` is a foreign key failure in `db`: no foreign row agrees with it. -/
def Fails (s : Schema) (db : DB V) (k : FK) (r : Rec V) : Prop :=
  ∀ q ∈ rows (tableOf s k.foreign) (db k.foreign), ¬ Agrees k.mapping r q.2

/-- The data object has no foreign key failure. -/
def Consistent (s : Schema) (fks : List FK) (db : DB V) : Prop :=
  ∀ k ∈ fks, ∀ p ∈ rows (tableOf s k.native) (db k.native), ¬ Fails s db k p.2

/-- One table is obtained from another by deleting rows (the order of the remaining rows is kept). -/
def SubTable : TableData V → TableData V → Prop
  | .dict rs, .dict rs' => List.Sublist rs rs'
  | .list rs, .list rs' => List.Sublist rs rs'
  | _, _ => False

/-- One data object is obtained from another by deleting rows of the schema's tables. -/
def SubDB (s : Schema) (db db' : DB V) : Prop := ∀ t ∈ PyDict.keys s, SubTable (db t) (db' t)

/-- The number of rows of the data object. -/
def totalRows (s : Schema) (db : DB V) : Nat := ((PyDict.keys s).map (fun t => (db t).size)).sum

end Ticdat.Spec
