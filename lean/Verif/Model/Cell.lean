import Verif.Model.Schema
/-!
# Cells: the Python values that the data type, parameter and input/output code tells apart
-/
namespace Ticdat

/-- Python numbers: `int`, `float`, `Fraction`.. as exact rationals, and the two infinities.  NaN is a `Cell` of its
own.  Simplification: no floating point rounding. -/
inductive XNum where
  | ninf
  | fin (q : Rat)
  | pinf
deriving DecidableEq, Repr

/-- `a < b` on numbers. -/
def XNum.lt : XNum → XNum → Bool
  | .ninf, .ninf => false
  | .ninf, _ => true
  | .fin _, .ninf => false
  | .fin a, .fin b => decide (a < b)
  | .fin _, .pinf => true
  | .pinf, _ => false

/-- `a <= b` on numbers. -/
def XNum.le (a b : XNum) : Bool := !(XNum.lt b a)

/-- `safe_apply(int)(x) == x` (utils.py:934-940, 288): `int` truncates finite numbers and raises on infinities, and
`safe_apply` turns the exception into `None`, which differs from `x`. -/
def XNum.isInt : XNum → Bool
  | .fin q => decide (q.den = 1)
  | _ => false

/-- A cell of a table: `None`, NaN (or `NaT`), a non-boolean number, a boolean, a string, a `datetime` object, or some
other scalar object (not a container). -/
inductive Cell where
  | none
  | nan
  | num (x : XNum)
  | bool (b : Bool)
  | str (s : String)
  | dt (d : Nat)
  | other (n : Nat)
deriving DecidableEq, Repr

/-- The representative of a cell under Python's `==`: `True == 1` and `False == 0`.  A NaN is taken to be one object
(`set` and `dict` compare by identity first). -/
def Cell.canon : Cell → Cell
  | .bool b => .num (.fin (if b then 1 else 0))
  | c => c

/-- Python's `a == b` (or `a is b`) on cells, as `set` membership uses it. -/
def Cell.pyEq (a b : Cell) : Bool := decide (a.canon = b.canon)

/-- `pd.isnull(x) or x is None` (utils.py:270). -/
def Cell.isNull : Cell → Bool
  | .none => true
  | .nan => true
  | _ => false

/-- `numericish(x)` (utils.py:953): a number that is not a `bool`; NaN is one. -/
def Cell.numericish : Cell → Bool
  | .nan => true
  | .num _ => true
  | _ => false

/-- `stringish(x)` (utils.py:948). -/
def Cell.stringish : Cell → Bool
  | .str _ => true
  | _ => false

end Ticdat
