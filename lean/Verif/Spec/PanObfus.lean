import Verif.Model.PanObfus
import Verif.Spec.Obfus
import Verif.Spec.PanSame
/-!
# Specification of `obfusimplify` for `PanDat` objects
-/
namespace Ticdat.Spec

/-- The default values of a `PanDatFactory` belong to fields. -/
def ClassDefaults (schema : List (String × TabClass)) : Prop :=
  ∀ tc ∈ schema, (PyDict.keys tc.2.defaults).Nodup ∧ ∀ f ∈ PyDict.keys tc.2.defaults, f ∈ tc.2.fields

/-- `v` is the primary key of a row of the table `E`, which has one primary key field. -/
def PanKeyOf (schema : List (String × TabClass)) (obj : PyDict String Frame) (E : String) (v : Cell) : Prop :=
  ∃ c f u, (E, c) ∈ schema ∧ c.pks = [f] ∧ PyDict.get? obj E = some u ∧ v ∈ u.rows.map (fun r => fieldCell u r f)

/-- No row fails a foreign key: some row of the foreign table has the same values. -/
def FramesConsistent (fks : List FK) (obj : PyDict String Frame) : Prop :=
  ∀ k ∈ fks, ∀ v w, PyDict.get? obj k.native = some v → PyDict.get? obj k.foreign = some w →
    ∀ r ∈ v.rows, ∃ q ∈ w.rows, ∀ p ∈ k.mapping, fieldCell v r p.1 = fieldCell w q p.2

/-- How the cell `x` of a field that shows entity `ent` (if any) appears in the copy: as the new name, or as it was (`None` may
be NaN). -/
def PanShownAs (schema : List (String × TabClass)) (obj : PyDict String Frame) (name : String → Cell → String) (ent : Option String)
    (x y : Cell) : Prop :=
  match ent with
  | none => Stored x y
  | some E => PanKeyOf schema obj E x ∧ y = .str (name E x)

/-- `obj'` is the obfuscated copy of `obj`, and `ren` the dictionary of renamings.  `name E v` is the new name of the row of
`E` with key `v`; `ent t f` is the entity that field `f` of table `t` shows, if it shows one. -/
structure PanObfuscates (schema : List (String × TabClass)) (fks : List FK) (skip : List String) (obj obj' : PyDict String Frame)
    (ren : PyDict String (String × Cell)) (name : String → Cell → String) (ent : String → String → Option String) : Prop where
  /-- A field shows an entity only if it refers to it or is its primary key, -/
  shows : ∀ t f E, ent t f = some E → Entity (tablesSchema schema) fks skip E ∧
    (Refers fks t f E ∨ ∃ c, (t, c) ∈ schema ∧ E = t ∧ c.pks = [f])
  /-- and then it shows one. -/
  hides : ∀ t f, ent t f = none → ∀ E, Entity (tablesSchema schema) fks skip E →
    ¬ Refers fks t f E ∧ ∀ c, (t, c) ∈ schema → ¬ (E = t ∧ c.pks = [f])
  /-- Different rows of entity tables, of one or of different tables, get different names. -/
  distinct : ∀ E v E' v', Entity (tablesSchema schema) fks skip E → PanKeyOf schema obj E v →
    Entity (tablesSchema schema) fks skip E' → PanKeyOf schema obj E' v' → name E v = name E' v' → E = E' ∧ v = v'
  /-- The dictionary of renamings leads from each new name to the table and key it stands for. -/
  renamings : ∀ l E v, PyDict.get? ren l = some (E, v) ↔
    Entity (tablesSchema schema) fks skip E ∧ PanKeyOf schema obj E v ∧ l = name E v
  /-- The copy has the same tables, each with its fields as columns, and the same rows in the same order, where fields that
  show an entity have its new name and the other fields are as they were. -/
  tables : PyDict.keys obj' = schema.map Prod.fst
  rows : ∀ tc ∈ schema, ∃ v v', PyDict.get? obj tc.1 = some v ∧ PyDict.get? obj' tc.1 = some v' ∧
    v'.cols = tc.2.fields.map .name ∧
    Pairwise2 (fun r r' => ∀ f ∈ tc.2.fields, PanShownAs schema obj name (ent tc.1 f) (fieldCell v r f) (fieldCell v' r' f))
      v.rows v'.rows

end Ticdat.Spec
