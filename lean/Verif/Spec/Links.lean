import Verif.Model.Links
import Verif.Spec.FK
/-!
# Specification of foreign key links
-/
namespace Ticdat.Spec
variable {V : Type}

/-- The foreign fields of the foreign key are exactly the primary key of the foreign table. -/
def Simple (s : Schema) (k : FK) : Prop := ∀ f, f ∈ s.pks k.foreign ↔ f ∈ k.mapping.map Prod.snd

/-- Both tables have a primary key, and neither is a generator table. -/
def Linkable (s : Schema) (gens : List String) (k : FK) : Prop :=
  (k.native ∉ gens ∧ s.pks k.native ≠ []) ∧ (k.foreign ∉ gens ∧ s.pks k.foreign ≠ [])

/-- A native row is found by its mapped fields: they contain the native table's primary key. -/
def OneToOne (s : Schema) (k : FK) : Prop := ∀ f ∈ s.pks k.native, f ∈ k.mapping.map Prod.fst

/-- The key fields of the native table that the foreign key does not map. -/
def unmapped (s : Schema) (k : FK) : List String :=
  (s.pks k.native).filter (fun f => !decide (f ∈ k.mapping.map Prod.fst))

/-- `key` is the key with fields `fields` of the record `r`: its values, as a scalar if there is one field. -/
def RestKey (fields : List String) (r : Rec V) (key : PKey V) : Prop :=
  KeyOK fields.length key ∧ (keyVals key).map some = fields.map r

/-- The native rows, with their keys, that refer to the foreign row with record `r'`. -/
def Referring (s : Schema) (db : DB V) (k : FK) (r' : Rec V) (pk : PKey V) (r : Rec V) : Prop :=
  (pk, r) ∈ rows (tableOf s k.native) (db k.native) ∧ Agrees k.mapping r r'

/-- The three attribute names that are never used for a link. -/
def reserved : List String := ["keys", "items", "values"]

/-- The links of the foreign key `k`, as attributes called `name` of the rows of its foreign table, are right.
If the foreign key is one-to-one, the attribute of a foreign row is the referring native row, and is missing if there is
none.  Otherwise it is a table with exactly the referring native rows, under the rest of their key. -/
def LinksRight [DecidableEq V] (s : Schema) (db : DB V) (k : FK) (name : String) (links : Links V) : Prop :=
  ∀ q r', (q, r') ∈ rows (tableOf s k.foreign) (db k.foreign) →
    (OneToOne s k → ∀ l, links.get? (k.foreign, q, name) = some l ↔
      ∃ pk r, Referring s db k r' pk r ∧ l = .row (k.native, pk)) ∧
    (¬ OneToOne s k → ∃ tbl, links.get? (k.foreign, q, name) = some (.table (unmapped s k).length tbl) ∧
      (PyDict.keys tbl).Nodup ∧
      ∀ key ref, tbl.get? key = some ref ↔
        ∃ pk r, Referring s db k r' pk r ∧ RestKey (unmapped s k) r key ∧ ref = (k.native, pk))

end Ticdat.Spec
