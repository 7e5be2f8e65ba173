import Verif.Spec.Factory
import Verif.Model.Clone
/-!
# Specification of the edited clones of a factory (C35)
-/
namespace Ticdat.Spec
open PyDict
variable {V K : Type}

/-- What an edit of tables and columns does not touch: parameters, flags, generator tables, foreign key links, data row
predicates.  The clone has not been used. -/
structure KeepsRest (f g : Factory V K) : Prop where
  params : SameDict g.params f.params
  flag : g.flag = f.flag
  prune : g.prune = f.prune
  dups : g.dups = f.dups
  automunge : g.automunge = f.automunge
  generators : g.generators = f.generators
  links : g.links = f.links
  preds : SameDict2 g.preds f.preds
  fresh : g.used = false

/-- The foreign key has the field `fld` of the table `t` on one of its sides. -/
def Mentions (k : FK) (t fld : String) : Prop :=
  ∃ p ∈ k.mapping, (k.native = t ∧ p.1 = fld) ∨ (k.foreign = t ∧ p.2 = fld)

/-- `g` is `f` without the column `fld` of the table `t`. -/
structure ColumnRemoved (f g : Factory V K) (t fld : String) : Prop where
  rest : KeepsRest f g
  table : ∀ pks dfs, get? f.tables t = some (.fields pks dfs) →
    get? g.tables t = some (.fields (pks.filter (fun x => decide (x ≠ fld))) (dfs.filter (fun x => decide (x ≠ fld))))
  others : ∀ t', t' ≠ t → get? g.tables t' = get? f.tables t'
  fks : ∀ k, k ∈ g.fks ↔ k ∈ f.fks ∧ ¬ Mentions k t fld
  types : ∀ t' x, get2 g.types t' x = if t' = t ∧ x = fld then none else get2 f.types t' x
  defaults : ∀ t' x, get2 g.defaults t' x = if t' = t ∧ x = fld then none else get2 f.defaults t' x
  tooltips : ∀ t' x, get? g.tooltips (t', x) = if t' = t ∧ x = fld then none else get? f.tooltips (t', x)

/-- `g` is `f` with the column `fld` added to the table `t`: to its primary key or its data fields, after `i` of these. -/
structure ColumnAdded (f g : Factory V K) (t fld : String) (kind : FieldKind) (i : Nat) : Prop where
  rest : KeepsRest f g
  table : ∀ pks dfs, get? f.tables t = some (.fields pks dfs) →
    match kind with
    | .primaryKey => ∃ a b, pks = a ++ b ∧ a.length = i ∧ get? g.tables t = some (.fields (a ++ fld :: b) dfs)
    | .data => ∃ a b, dfs = a ++ b ∧ a.length = i ∧ get? g.tables t = some (.fields pks (a ++ fld :: b))
  others : ∀ t', t' ≠ t → get? g.tables t' = get? f.tables t'
  fks : ∀ k, k ∈ g.fks ↔ k ∈ f.fks
  types : SameDict2 g.types f.types
  defaults : ∀ t' x, get2 g.defaults t' x =
    if t' = t ∧ x = fld ∧ kind = .data then some (.num (.fin 0)) else get2 f.defaults t' x
  tooltips : SameDict g.tooltips f.tooltips

/-- The foreign key with the field `fld` of `t` renamed. -/
def renamedFK (t fld new : String) (k : FK) : FK :=
  ⟨k.native, k.foreign, k.mapping.map (fun p =>
    (if k.native = t ∧ p.1 = fld then new else p.1, if k.foreign = t ∧ p.2 = fld then new else p.2))⟩

/-- `g` is `f` with the column `fld` of the table `t` renamed to `new`. -/
structure ColumnRenamed (f g : Factory V K) (t fld new : String) : Prop where
  rest : KeepsRest f g
  table : ∀ pks dfs, get? f.tables t = some (.fields pks dfs) →
    get? g.tables t = some (.fields (pks.map (fun x => if x = fld then new else x)) (dfs.map (fun x => if x = fld then new else x)))
  others : ∀ t', t' ≠ t → get? g.tables t' = get? f.tables t'
  fks : ∀ k, k ∈ g.fks ↔ ∃ k' ∈ f.fks, k = renamedFK t fld new k'
  types : ∀ t' x, get2 g.types t' x = if t' = t ∧ x = new then get2 f.types t fld else
    if t' = t ∧ x = fld then none else get2 f.types t' x
  defaults : ∀ t' x, get2 g.defaults t' x = if t' = t ∧ x = new then get2 f.defaults t fld else
    if t' = t ∧ x = fld then none else get2 f.defaults t' x
  tooltips : ∀ t' x, get? g.tooltips (t', x) = if t' = t ∧ x = new then get? f.tooltips (t, fld) else
    if t' = t ∧ x = fld then none else get? f.tooltips (t', x)

/-- `g` is `f` with a table added. -/
structure TableAdded (f g : Factory V K) (t : String) (pks dfs : List String) : Prop where
  rest : KeepsRest f g
  table : get? g.tables t = some (.fields pks dfs)
  others : ∀ t', t' ≠ t → get? g.tables t' = get? f.tables t'
  fks : ∀ k, k ∈ g.fks ↔ k ∈ f.fks
  types : SameDict2 g.types f.types
  defaults : ∀ t' x, get2 g.defaults t' x = if t' = t ∧ x ∈ dfs then some (.num (.fin 0)) else get2 f.defaults t' x
  tooltips : SameDict g.tooltips f.tooltips

/-- `g` is `f` with only the tables in `ts`. -/
structure TablesKept (f g : Factory V K) (ts : List String) : Prop where
  tables : ∀ t, get? g.tables t = if t ∈ ts then get? f.tables t else none
  fks : ∀ k, k ∈ g.fks ↔ k ∈ f.fks ∧ k.native ∈ ts ∧ k.foreign ∈ ts
  types : ∀ t x, get2 g.types t x = if t ∈ ts then get2 f.types t x else none
  defaults : ∀ t x, get2 g.defaults t x = if t ∈ ts then get2 f.defaults t x else none
  tooltips : ∀ t x, get? g.tooltips (t, x) = if t ∈ ts then get? f.tooltips (t, x) else none
  preds : ∀ t n, get2 g.preds t n = if t ∈ ts then get2 f.preds t n else none
  params : ∀ n, get? g.params n = if "parameters" ∈ ts then get? f.params n else none
  flag : g.flag = f.flag
  prune : g.prune = f.prune
  dups : g.dups = f.dups
  automunge : g.automunge = f.automunge
  generators : g.generators = f.generators
  links : g.links = f.links
  fresh : g.used = false

/-- `g` has all the settings of `f`, and has not been used. -/
structure SameFactory (f g : Factory V K) : Prop where
  rest : KeepsRest f g
  tables : SameDict g.tables f.tables
  fks : ∀ k, k ∈ g.fks ↔ k ∈ f.fks
  types : SameDict2 g.types f.types
  defaults : SameDict2 g.defaults f.defaults
  tooltips : SameDict g.tooltips f.tooltips

/-- No table is generic. -/
def NoGeneric (f : Factory V K) : Prop := ∀ t, get? f.tables t ≠ some .generic

/-- No generator table has a data row predicate. -/
def NoGeneratorPreds (f : Factory V K) : Prop := ∀ t n p, get2 f.preds t n = some p → t ∉ f.generators

end Ticdat.Spec
