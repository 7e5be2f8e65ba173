import Verif.Spec.FK
import Verif.Spec.TableIO
/-!
# Specification of `obfusimplify` (C34)
-/
namespace Ticdat.Spec
variable {V : Type}

/-- An entity table: it is not skipped, its primary key is one field, and this field does not refer to the whole primary
key of another table (a row of such a table stands for a row of the other one). -/
def Entity (s : Schema) (fks : List FK) (skip : List String) (E : String) : Prop :=
  E ∈ PyDict.keys s ∧ E ∉ skip ∧ ∃ f, s.pks E = [f] ∧
    ∀ k ∈ fks, k.native = E → f ∈ k.mapping.map Prod.fst →
      ¬ (s.pks k.foreign ≠ [] ∧ ∀ p ∈ s.pks k.foreign, p ∈ k.mapping.map Prod.snd)

/-- The field `f` of table `t` is part of a foreign key to `E`. -/
def Refers (fks : List FK) (t f E : String) : Prop :=
  ∃ k ∈ fks, k.native = t ∧ k.foreign = E ∧ f ∈ k.mapping.map Prod.fst

/-- `v` is the key of a row of the entity table `E`. -/
def KeyOf (db : DB V) (E : String) (v : V) : Prop := ∃ row, (PKey.one v, row) ∈ (db E).items

/-- How the cell `x` of a field that shows entity `ent` (if any) appears in the copy. -/
def ShownAs (str : String → V) (db : DB V) (name : String → V → String) (ent : Option String) (x y : Option V) : Prop :=
  match ent with
  | none => y = x
  | some E => ∃ v, x = some v ∧ KeyOf db E v ∧ y = some (str (name E v))

/-- `db'` is the obfuscated copy of `db`, and `ren` the dictionary of renamings.  `name E v` is the new name of the row of
`E` with key `v`; `ent t f` is the entity that field `f` of table `t` shows, if it shows one. -/
structure Obfuscates (s : Schema) (fks : List FK) (skip : List String) (str : String → V) (db db' : DB V)
    (ren : PyDict String (String × V)) (name : String → V → String) (ent : String → String → Option String) : Prop where
  /-- A field shows an entity only if it refers to it or is its primary key, -/
  shows : ∀ t f E, ent t f = some E → Entity s fks skip E ∧ (Refers fks t f E ∨ E = t ∧ s.pks t = [f])
  /-- and then it shows one. -/
  hides : ∀ t f, ent t f = none → ∀ E, Entity s fks skip E → ¬ Refers fks t f E ∧ ¬ (E = t ∧ s.pks t = [f])
  /-- Different rows of entity tables, of one or of different tables, get different names. -/
  distinct : ∀ E v E' v', Entity s fks skip E → KeyOf db E v → Entity s fks skip E' → KeyOf db E' v' →
    name E v = name E' v' → E = E' ∧ v = v'
  /-- The dictionary of renamings leads from each new name to the table and key it stands for. -/
  renamings : ∀ l E v, PyDict.get? ren l = some (E, v) ↔ Entity s fks skip E ∧ KeyOf db E v ∧ l = name E v
  /-- The tables have the same rows in the same order, where fields that show an entity have its new name and the other
  fields are as they were. -/
  rows : ∀ t ∈ PyDict.keys s,
    Pairwise2 (fun p q : PKey V × Rec V => ∀ f ∈ s.pks t ++ s.dfs t, ShownAs str db name (ent t f) (p.2 f) (q.2 f))
      (rows (tableOf s t) (db t)) (rows (tableOf s t) (db' t))
  /-- The copy is a good data object without foreign key failures. -/
  good : DBOK s db'
  consistent : Consistent s fks db'

/-- Field `f` of table `t` stands for entity `E`: it is its primary key or refers to it. -/
def Shows (s : Schema) (fks : List FK) (skip : List String) (t f E : String) : Prop :=
  Entity s fks skip E ∧ (Refers fks t f E ∨ E = t ∧ s.pks t = [f])

/-- The foreign keys say clearly which entity a field stands for. -/
structure Clear (s : Schema) (fks : List FK) (skip : List String) : Prop where
  /-- Foreign keys to an entity table point to its primary key. -/
  simple : ∀ k ∈ fks, Entity s fks skip k.foreign → ∀ p ∈ k.mapping, s.pks k.foreign = [p.2]
  /-- A field stands for one entity at most. -/
  single : ∀ t f E E', Shows s fks skip t f E → Shows s fks skip t f E' → E = E'
  /-- Fields joined by a foreign key stand for the same entity, or for none. -/
  joined : ∀ k ∈ fks, ∀ p ∈ k.mapping, ∀ E, Shows s fks skip k.native p.1 E ↔ Shows s fks skip k.foreign p.2 E

end Ticdat.Spec
