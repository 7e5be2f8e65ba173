import Verif.Spec.PanFactory
import Verif.Spec.DataType
/-!
# What each configuration call accepts and does (C87)
-/
namespace Ticdat.Spec
open PyDict
variable {V K : Type}

/-- Can be a default value: `None`, a number (NaN included), a Boolean or a text. -/
def CanBeDefault (c : Cell) : Prop :=
  c = .none ∨ c = .nan ∨ (∃ x, c = .num x) ∨ (∃ b, c = .bool b) ∨ ∃ s, c = .str s

/-- The arguments describe a data type: with `datetime` the others do not matter; else `strings_allowed` is `'*'` or a container of
strings, and if numbers are allowed the bounds are numbers in the right order. -/
def GoodTypeArgs (a : TypeArgs) : Prop :=
  a.datetime = true ∨ ((a.strings = .star ∨ ∃ l : List String, a.strings = .coll (l.map Cell.str)) ∧
    (a.numberAllowed = true → ∃ mn mx, a.min = .num mn ∧ a.max = .num mx ∧ (XLt mn mx ∨ mn = mx)))

/-- The data type that is recorded for the arguments. -/
structure RecordedType (a : TypeArgs) (td : TypeDict) : Prop where
  datetime : td.datetime = a.datetime
  nullable : td.nullable = a.nullable
  numbers : td.numberAllowed = (a.numberAllowed && !a.datetime)
  bounds : td.numberAllowed = true → a.min = .num td.min ∧ a.max = .num td.max ∧ td.inclusiveMin = a.inclusiveMin ∧
    td.inclusiveMax = a.inclusiveMax ∧ td.mustBeInt = a.mustBeInt
  noBounds : td.numberAllowed = false → td.min = .fin 0 ∧ td.max = .pinf ∧ td.inclusiveMin = true ∧ td.inclusiveMax = true ∧
    td.mustBeInt = false
  noStrings : a.datetime = true → td.strings = .oneOf []
  anyString : a.datetime = false → a.strings = .star → td.strings = .any
  someStrings : ∀ l : List String, a.datetime = false → a.strings = .coll (l.map Cell.str) → td.strings = .oneOf l

/-- Every table named is a table with the fields named, and every value can be a default value. -/
def GoodDefaults (tables : PyDict String Decl) (l : PyDict String (PyDict String Cell)) : Prop :=
  ∀ t row, (t, row) ∈ l → (∃ pks dfs, get? tables t = some (.fields pks dfs)) ∧
    ∀ x c, (x, c) ∈ row → HasField tables t x ∧ CanBeDefault c

/-- The call is accepted, on a factory of the given class in state `f`. -/
def CallAllowed (cls : FKind) (env : FactoryEnv) (f : Factory V K) : FOp V K → Prop
  | .setDataType t x a => f.used = false ∧ HasField f.tables t x ∧ (f.params ≠ [] → ¬ ParamField f.tables t x) ∧ GoodTypeArgs a
  | .clearDataType t x => get2 f.types t x ≠ none → f.used = false
  | .setDefault t x c => f.used = false ∧ HasField f.tables t x ∧ CanBeDefault c
  | .setDefaults l => f.used = false ∧ GoodDefaults f.tables l
  | .addFK n m mapping => f.used = false ∧ mapping ≠ [] ∧
      ∀ a b, get? (PyDict.ofList mapping) a = some b → HasField f.tables n a ∧ HasField f.tables m b
  | .clearFKs n => f.used = false ∧ ∀ t, n = some t → t ∈ keys f.tables
  | .addImplied => cls = .tic ∧ f.used = false
  | .addParam _ c e => f.used = false ∧ HasParamTable f.tables ∧
      (∀ x, ParamField f.tables "parameters" x → get2 f.types "parameters" x = none) ∧
      ∀ a, e = some a → GoodTypeArgs a ∧ ∃ td, RecordedType a td ∧ Valid env.text.parses td c
  | .removeParam n => n ∈ keys f.params
  | .setGenerators g => cls = .tic ∧ f.used = false ∧ ∀ t ∈ g, ∃ dfs, get? f.tables t = some (.fields [] dfs)
  | .setTooltip t x _ => t ∈ keys f.tables ∧ (x = "" ∨ HasField f.tables t x)
  | .addRowPred c => f.used = false ∧ c.table ∈ keys f.tables ∧
      (cls = .tic → get? f.tables c.table ≠ some .generic ∧ c.table ∉ f.generators)
  | .setFlag c => c = .str "N/A" ∨ c = .none ∨ ∃ q, 0 < q ∧ c = .num (.fin q)
  | .setTrailing s => s = "prune" ∨ s = "ignore"
  | .setDups s => s = "assert" ∨ s = "warn" ∨ s = "ignore"
  | .setAutomunge _ => True
  | .enableLinks => cls = .tic
  | .use => True

/-- `d'` is `d` with the entry for `(a, b)` set to `v` (removed for `none`). -/
def Sets2 {A B C : Type} [DecidableEq A] [DecidableEq B] (d : PyDict A (PyDict B C)) (a : A) (b : B) (v : Option C)
    (d' : PyDict A (PyDict B C)) : Prop := ∀ a' b', get2 d' a' b' = if a' = a ∧ b' = b then v else get2 d a' b'

/-- `d'` is `d` with the entry for `a` set to `v` (removed for `none`). -/
def Sets1 {A C : Type} [DecidableEq A] (d : PyDict A C) (a : A) (v : Option C) (d' : PyDict A C) : Prop :=
  ∀ a', get? d' a' = if a' = a then v else get? d a'

/-- The name a predicate gets: the given one, else the least number that names no predicate of the table. -/
def PredNamed (f : Factory V K) (t : String) (name : Option PName) (n : PName) : Prop :=
  name = some n ∨ (name = none ∧ ∃ i, n = .num i ∧ get2 f.preds t (.num i) = none ∧ ∀ j < i, get2 f.preds t (.num j) ≠ none)

/-- The name that `set_duplicates_ticdat_init` uses. -/
def dupText : DupMode → String
  | .assert => "assert"
  | .warn => "warn"
  | .ignore => "ignore"

/-- What an accepted call does, and that it does nothing else: `g = { f with x := g.x }` says that at most `x` changes. -/
def Effect (f g : Factory V K) : FOp V K → Prop
  | .setDataType t x a => g = { f with types := g.types } ∧ ∃ td, RecordedType a td ∧ Sets2 f.types t x (some td) g.types
  | .clearDataType t x => g = { f with types := g.types } ∧ Sets2 f.types t x none g.types
  | .setDefault t x c => g = { f with defaults := g.defaults } ∧ Sets2 f.defaults t x (some c) g.defaults
  | .setDefaults l => g = { f with defaults := g.defaults } ∧
      ∀ t x, get2 g.defaults t x = (get2 l t x).or (get2 f.defaults t x)
  | .addFK n m mapping => g = { f with fks := g.fks } ∧ ∀ k, k ∈ g.fks ↔ k ∈ f.fks ∨ k = ⟨n, m, PyDict.ofList mapping⟩
  | .clearFKs none => g = { f with fks := g.fks } ∧ g.fks = []
  | .clearFKs (some t) => g = { f with fks := g.fks } ∧ ∀ k, k ∈ g.fks ↔ k ∈ f.fks ∧ k.native ≠ t ∧ t ≠ ""
  | .addImplied => g = { f with fks := g.fks } ∧ ∀ k ∈ f.fks, k ∈ g.fks
  | .addParam n c e => g = { f with params := g.params } ∧
      ∃ td, (e = none → td = none) ∧ (∀ a, e = some a → ∃ td', td = some td' ∧ RecordedType a td') ∧
        Sets1 f.params n (some (td, c)) g.params
  | .removeParam n => g = { f with params := g.params } ∧ Sets1 f.params n none g.params
  | .setGenerators gs => g = { f with generators := gs }
  | .setTooltip t x tip => g = { f with tooltips := g.tooltips } ∧
      Sets1 f.tooltips (t, x) (if tip = "" then none else some tip) g.tooltips
  | .addRowPred c => g = { f with preds := g.preds } ∧
      ((∃ n, PredNamed f c.table c.name n ∧ Sets2 f.preds c.table n c.pred g.preds) ∨
        (c.name = none ∧ c.pred.isNone = true ∧ g = f))
  | .setFlag c => ∃ x : InfFlag, x.toCell = c ∧ g = { f with flag := x }
  | .setTrailing s => g = { f with prune := decide (s = "prune") }
  | .setDups s => ∃ m, dupText m = s ∧ g = { f with dups := m }
  | .setAutomunge b => g = { f with automunge := b }
  | .enableLinks => g = { f with links := true }
  | .use => g = { f with used := true }

/-- `set_default_values` that raised may have set some of the given default values. -/
def PartlySet (f g : Factory V K) (op : FOp V K) : Prop :=
  ∃ l, op = .setDefaults l ∧ f.used = false ∧ g = { f with defaults := g.defaults } ∧
    ∀ t x, get2 g.defaults t x = get2 f.defaults t x ∨ ∃ row c, (t, row) ∈ l ∧ (x, c) ∈ row ∧ get2 g.defaults t x = some c

/-- Keyword arguments and dictionaries have no key twice. -/
def ProperArgs : FOp V K → Prop
  | .setDefaults l => IsDict2 l
  | _ => True

end Ticdat.Spec
