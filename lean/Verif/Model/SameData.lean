import Verif.Model.Good
import Verif.Model.Utils
/-!
# `_same_data` and `nearly_same` with NaN

Numbers are exact rationals, infinities and NaN (`none` below).
-/
namespace Ticdat

/-- A Python `float`: NaN is `none`. -/
abbrev PNum := Option XNum

/-- `a < b`: comparisons with NaN are false. -/
def PNum.lt : PNum → PNum → Bool
  | some a, some b => XNum.lt a b
  | _, _ => false

/-- `max(a, b)`: the first argument unless the second is greater. -/
def PNum.max (a b : PNum) : PNum := if PNum.lt a b then b else a

/-- `min(a, b)`: the first argument unless the second is smaller. -/
def PNum.min (a b : PNum) : PNum := if PNum.lt b a then b else a

/-- `-x`. -/
def PNum.neg (a : PNum) : PNum := a.map XNum.neg

/-- `abs(x)`. -/
def PNum.abs : PNum → PNum
  | some (.fin q) => some (.fin q.abs)
  | some .pinf => some .pinf
  | some .ninf => some .pinf
  | none => none

/-- `a - b`. -/
def PNum.sub : PNum → PNum → PNum
  | some (.fin a), some (.fin b) => some (.fin (a - b))
  | some (.fin _), some .pinf => some .ninf
  | some (.fin _), some .ninf => some .pinf
  | some .pinf, some .pinf => none
  | some .pinf, some _ => some .pinf
  | some .ninf, some .ninf => none
  | some .ninf, some _ => some .ninf
  | _, _ => none

/-- `a / b` for a positive `b`. -/
def PNum.div : PNum → PNum → PNum
  | some (.fin a), some (.fin b) => some (.fin (a / b))
  | some (.fin _), some _ => some (.fin 0)
  | some .pinf, some (.fin _) => some .pinf
  | some .ninf, some (.fin _) => some .ninf
  | _, _ => none

/-- `per_error` (utils.py:1312-1322) for arguments that are not both negative. -/
def perErrPos (x1 x2 : PNum) : PNum :=
  if x1 = some .pinf then (if x2 = some .pinf then some (.fin 0) else x1)
  else
    let big := PNum.max x1.abs x2.abs
    if PNum.lt (some (.fin smallNotZero)) big then PNum.div (PNum.sub (PNum.max x1 x2) (PNum.min x1 x2)) big
    else some (.fin 0)

/-- `per_error(x1, x2)` (utils.py:1307-1322); the recursive call has positive arguments. -/
def perErr (x1 x2 : PNum) : PNum :=
  if PNum.lt x1 (some (.fin 0)) && PNum.lt x2 (some (.fin 0)) then perErrPos x1.neg x2.neg else perErrPos x1 x2

/-- `nearly_same(x1, x2, epsilon)` (utils.py:1324-1325) for numbers that can be NaN. -/
def nearlySameN (x1 x2 : PNum) (eps : Rat) : Bool := PNum.lt (perErr x1 x2) (some (.fin eps))

/-- The number that a cell is in arithmetic: `True` is 1.  Strings, `None`, datetimes and other objects have none, the
comparison `x < 0` or `abs(x)` raises for them.  Simplification: `NaT` counts as NaN. -/
def Cell.pnum : Cell → Option PNum
  | .num x => some (some x)
  | .nan => some Option.none
  | .bool b => some (some (.fin (if b then 1 else 0)))
  | _ => Option.none

/-- `safe_apply(nearly_same)(x, y, epsilon)` as a truth value (ticdatfactory.py:1313).  If only the second argument is no
number, either `abs` raises or the infinite first argument is returned, which is not below `epsilon`. -/
def nearCell (eps : Rat) (a b : Cell) : Bool :=
  match a.pnum, b.pnum with
  | some x, some y => nearlySameN x y eps
  | _, _ => false

/-- `a == b` on cells: NaN is not equal to itself. -/
def Cell.valEq (a b : Cell) : Bool := decide (a.canon = b.canon) && decide (a ≠ .nan)

/-- `is_nan` (ticdatfactory.py:1307). -/
def isNanCell (emptyNan : Bool) (x : Cell) : Bool := (decide (x = .str "") && emptyNan) || x.isNull

/-- The keyword arguments of `_same_data`. -/
structure SameOpts where
  eps : Rat
  nansSame : Bool
  emptyNan : Bool
deriving Repr

/-- The comparison of two cells (ticdatfactory.py:1311-1313, 1319-1321). -/
def sameCell (o : SameOpts) (a b : Cell) : Bool :=
  Cell.valEq a b || (decide (0 < o.eps) && nearCell o.eps a b) ||
    (o.nansSame && (isNanCell o.emptyNan a && isNanCell o.emptyNan b))

/-- `samerow` for rows that are dictionaries (ticdatfactory.py:1314-1323), as the rows of every `TicDat` object are. -/
def sameRow (o : SameOpts) (r1 r2 : RowVal) : Bool :=
  if r1.isEmpty != r2.isEmpty || !((PyDict.keys r1).all (fun f => decide (f ∈ PyDict.keys r2)) &&
      (PyDict.keys r2).all (fun f => decide (f ∈ PyDict.keys r1))) then false
  else r1.all (fun p => match PyDict.get? r2 p.1 with | some b => sameCell o p.2 b | none => false)

/-- The rows that iterating over a table gives: a generator function makes rows by the row factory
(ticdatfactory.py:1345). -/
def OutTab.iter : OutTab → List RowVal
  | .tab (.plain rows) => rows
  | .gen c rows => rows.filterMap (initRow c)
  | _ => []

/-- The comparison of two tables (ticdatfactory.py:1333-1350); `none` is a raised exception.  A DataFrame is `dictish`:
the columns are compared, and the truth value of a column raises. -/
def sameTab (o : SameOpts) : OutTab → OutTab → Option Bool
  | .tab (.keyed d1), .tab (.keyed d2) => some (
    (PyDict.keys d1).all (fun k => decide (k ∈ PyDict.keys d2)) && (PyDict.keys d2).all (fun k => decide (k ∈ PyDict.keys d1)) &&
      d1.all (fun p => match PyDict.get? d2 p.1 with | some r2 => sameRow o p.2 r2 | none => false))
  | .tab (.keyed _), _ => some false
  | _, .tab (.keyed _) => some false
  | .frame v, .frame w =>
    if v.cols.all (fun l => decide (l ∈ w.cols)) && w.cols.all (fun l => decide (l ∈ v.cols)) then
      (if v.cols = [] then some true else none)
    else some false
  | .frame _, _ => some false
  | _, .frame _ => some false
  | t1, t2 => some (decide (t1.iter.length = t2.iter.length) && t1.iter.all (fun r1 => t2.iter.any (sameRow o r1)))

/-- The loop of `_same_data` over the tables (ticdatfactory.py:1333-1351), in an arbitrary order. -/
def sameLoop (o : SameOpts) (o1 o2 : PyDict String OutTab) : List (String × TabKind) → Option Bool
  | [] => some true
  | tk :: rest =>
    match (PyDict.get? o1 tk.1).bind (fun t1 => (PyDict.get? o2 tk.1).bind (sameTab o t1)) with
    | none => none
    | some false => some false
    | some true => sameLoop o o1 o2 rest

/-- `_same_data(obj1, obj2, epsilon, nans_are_same_for_data_rows, empty_strings_can_be_nan)` (ticdatfactory.py:1305-1351).
The assertion that both are good objects is not repeated here: `TicDat` objects are good (C54). -/
def sameData (o : SameOpts) (kinds : List (String × TabKind)) (o1 o2 : PyDict String OutTab) : Option Bool :=
  if o.eps < 0 then none else sameLoop o o1 o2 kinds

end Ticdat
