import Verif.Model.CellIO
import Verif.Spec.DataType
/-!
# Specification of cell input and output
-/
namespace Ticdat.Spec

/-- The documented effect of a numeric infinity flag `q` on a number that is written and read back (docstring of
`set_infinity_io_flag`, ticdatfactory.py:994-1019): numbers at least the flag become infinite, numbers at most minus the
flag become minus infinite, all others are unchanged. -/
inductive ReadBack (q : Rat) : XNum → XNum → Prop
  | big {x : XNum} : XLt (.fin q) x ∨ x = .fin q → ReadBack q x .pinf
  | small {x : XNum} : XLt x (.fin (-q)) ∨ x = .fin (-q) → ReadBack q x .ninf
  | between {x : XNum} : XLt (.fin (-q)) x → XLt x (.fin q) → ReadBack q x x

/-- A field whose text is not reinterpreted on reading: it has no type, or its type is no datetime and does not, under
`automunge_multitype_fields`, allow both numbers and some string. -/
def PlainField (cf : IOConf) (t f : String) : Prop :=
  ∀ td, typeOf cf.types t f = some td →
    td.datetime = false ∧ ¬ (cf.automunge = true ∧ td.numberAllowed = true ∧ td.strings ≠ .oneOf [])

/-- The cell is valid for the type of its field, if that has one. -/
def ValidAt (env : TextEnv) (cf : IOConf) (t f : String) (x : Cell) : Prop :=
  ∀ td, typeOf cf.types t f = some td → Valid env.parses td x

/-- `None` cannot be used as an infinity flag for a field: its type allows both infinities and no null. -/
def NoneFlagAmbiguous (env : TextEnv) (cf : IOConf) (t f : String) : Prop :=
  ∃ td, typeOf cf.types t f = some td ∧ td.numberAllowed = true ∧ ¬ Valid env.parses td .none ∧
    Valid env.parses td (.num .pinf) ∧ Valid env.parses td (.num .ninf)

/-- The declared type of a parameter. -/
def paramType (params : Params) (k : Cell) : Option TypeDict :=
  (params.find? (fun p => decide (p.1 = k))).bind (fun p => p.2.1)

/-- What the libraries have to do for text files to carry numbers and dates: the text of a number or a datetime reads as
that number or datetime, the empty text is no number, and the text of `None` is empty, that of a string itself. -/
structure TextOK (env : TextEnv) : Prop where
  num : ∀ x, env.float (env.text (.num x)) = some (some x)
  dt : ∀ d, env.date (.str (env.text (.dt d))) = some d
  empty : env.float "" = none
  null : env.text .none = ""
  str : ∀ s, env.text (.str s) = s

end Ticdat.Spec
