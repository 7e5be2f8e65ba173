import Verif.Model.PanFactory
import Verif.Spec.Clone
import Verif.Spec.Used
/-!
# Specification: the states of a `PanDatFactory` and clones between the classes (C69)
-/
namespace Ticdat.Spec
open PyDict
variable {V K : Type}

/-- The states of a `PanDatFactory` that the public calls lead to. -/
def PanReachable (env : FactoryEnv) (f : Factory V K) : Prop :=
  ∃ (tables : PyDict String Decl) (f0 : Factory V K) (ops : List (FOp V K)),
    (PyDict.keys tables).Nodup ∧ newFactory env tables = some f0 ∧ f = f0.applyPanAll env ops

/-- A factory of either class, in a state that its public calls lead to. -/
def FactoryOf (env : FactoryEnv) : FKind → Factory V K → Prop
  | .tic, f => Reachable env f
  | .pan, f => PanReachable env f

/-- The data row predicate goes into the clone: not if it has a `predicate_kwargs_maker`, which expects a data object of
the class of the original, and the clone is of the other class, unless `convert_dat` is given. -/
def PredKept (src dst : FKind) (convert : Bool) (p : RowPred V K) : Prop :=
  src = dst ∨ convert = true ∨ p.maker = none

/-- The clone `g` of `f`: the same tables, foreign keys, default values, data types, parameters, flags and tooltips; the
data row predicates that are kept, with their names; the generator tables and foreign key links if both classes have
them.  It has not been used. -/
structure ClonedTo (src dst : FKind) (convert : Bool) (f g : Factory V K) : Prop where
  tables : SameDict g.tables f.tables
  fks : ∀ k, k ∈ g.fks ↔ k ∈ f.fks
  types : SameDict2 g.types f.types
  defaults : SameDict2 g.defaults f.defaults
  params : SameDict g.params f.params
  flag : g.flag = f.flag
  prune : g.prune = f.prune
  dups : g.dups = f.dups
  automunge : g.automunge = f.automunge
  tooltips : SameDict g.tooltips f.tooltips
  preds : ∀ t n p, get2 g.preds t n = some p ↔ get2 f.preds t n = some p ∧ PredKept src dst convert p
  generators : g.generators = if src = .tic ∧ dst = .tic then f.generators else []
  links : g.links = if src = .tic ∧ dst = .tic then f.links else false
  fresh : g.used = false

end Ticdat.Spec
