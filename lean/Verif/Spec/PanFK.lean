import Verif.Spec.FK
import Verif.Model.PanFK
/-! # Specification of foreign keys on pandas data objects -/
namespace Ticdat.Spec
variable {V : Type}

/-- No parent row agrees with `r` on the mapped fields. -/
def PanFails (db : PanDB V) (k : FK) (r : PRow V) : Prop := ∀ q ∈ db k.foreign, ¬ Agrees k.mapping r q

/-- No row of any native table is a failure. -/
def PanConsistent (fks : List FK) (db : PanDB V) : Prop := ∀ k ∈ fks, ∀ r ∈ db k.native, ¬ PanFails db k r

/-- Obtained by deleting rows. -/
def PanSub (db db' : PanDB V) : Prop := ∀ t, List.Sublist (db t) (db' t)

/-- No pair's native field is the foreign field of a later pair of the same key, unless the earlier pair maps the
field to itself. -/
def NoClobber (k : FK) : Prop := k.mapping.Pairwise (fun p q => p.1 = q.2 → p.1 = p.2)

/-- The data frames with the same rows as a `TicDat` object (`copy_to_pandas(drop_pk_columns=False)`). -/
def toPan (s : Schema) (db : DB V) : PanDB V := fun t =>
  if t ∈ PyDict.keys s then (rows (tableOf s t) (db t)).map Prod.snd else []

end Ticdat.Spec
