import Verif.Spec.Factory
import Verif.Model.Names
/-!
# Specification of renaming fields that are reserved words
-/
namespace Ticdat.Spec
variable {V K : Type}

/-- The name begins with an underscore. -/
def StartsUnder (s : String) : Prop := ∃ r : String, s = "_" ++ r

/-- The underscore is its own lower case and the lower case of no other character, and no lower case is empty. -/
structure UnderLaws (env : CaseEnv) : Prop where
  under : env.lo '_' = ['_']
  only : ∀ c, '_' ∈ env.lo c → c = '_'
  nonempty : ∀ c, env.lo c ≠ []

/-- `new` is the name of the field `old` once reserved words have an underscore in front. -/
def Escaped (env : CaseEnv) (reserved : List (List Char)) (old new : String) : Prop :=
  (env.lower old.toList ∈ reserved ∧ new = "_" ++ old) ∨ (env.lower old.toList ∉ reserved ∧ new = old)

/-- `new` is the name of the field `old` without one underscore in front, if it has one. -/
def Unescaped (old new : String) : Prop := old = "_" ++ new ∨ (¬ StartsUnder old ∧ new = old)

/-- The factory `g` has the tables of `f`, in the same order, with the fields in the same places under the names that
`rel` gives them; default values and data types are those of the fields of `f`, and there is nothing else in it. -/
structure Renamed (rel : String → String → Prop) (f g : Factory V K) : Prop where
  names : PyDict.keys g.tables = PyDict.keys f.tables
  fields : ∀ t pks dfs, PyDict.get? f.tables t = some (.fields pks dfs) → ∃ a b,
    PyDict.get? g.tables t = some (.fields a b) ∧ a.length = pks.length ∧ b.length = dfs.length ∧
      (∀ (i : Nat) x y, pks[i]? = some x → a[i]? = some y → rel x y) ∧ ∀ (i : Nat) x y, dfs[i]? = some x → b[i]? = some y → rel x y
  defaults : ∀ t x y, HasField f.tables t x → rel x y → PyDict.get2 g.defaults t y = PyDict.get2 f.defaults t x
  types : ∀ t x y, HasField f.tables t x → rel x y → PyDict.get2 g.types t y = PyDict.get2 f.types t x
  no_default : ∀ t y, (∀ x, HasField f.tables t x → ¬ rel x y) → PyDict.get2 g.defaults t y = none
  no_type : ∀ t y, (∀ x, HasField f.tables t x → ¬ rel x y) → PyDict.get2 g.types t y = none

/-- The settings of a new factory, apart from default values and data types. -/
structure Bare (g : Factory V K) : Prop where
  fks : g.fks = []
  links : g.links = false
  preds : g.preds = []
  tooltips : g.tooltips = []
  generators : g.generators = []
  params : g.params = []
  flag : g.flag = .na
  prune : g.prune = true
  dups : g.dups = .assert
  automunge : g.automunge = true
  used : g.used = false

/-- A generic table is declared. -/
def HasGeneric (tables : PyDict String Decl) : Prop := ∃ t, PyDict.get? tables t = some .generic

end Ticdat.Spec
