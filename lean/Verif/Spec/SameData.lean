import Verif.Model.SameData
import Verif.Spec.AsDict
/-!
# Specification of `_same_data`
-/
namespace Ticdat.Spec

/-- The finite number that a cell is; `True` is 1 and `False` is 0. -/
def finiteOf : Cell → Option Rat
  | .num (.fin q) => some q
  | .bool b => some (if b then 1 else 0)
  | _ => none

/-- The cell is an infinity. -/
def Infinite (a : Cell) : Prop := a = .num .pinf ∨ a = .num .ninf

/-- Two finite numbers differ by less than `eps` times the larger magnitude, or are both tiny. -/
def Close (eps : Rat) (x y : Rat) : Prop :=
  if max x.abs y.abs > 1 / 10000000000 then (x - y).abs < eps * max x.abs y.abs else 0 < eps

/-- The cells are equal in Python: NaN is not equal to anything. -/
def Equal (a b : Cell) : Prop := a ≠ .nan ∧ (a = b ∨ ∃ x, finiteOf a = some x ∧ finiteOf b = some x)

/-- `None`, NaN, or, if that is asked for, the empty string. -/
def Missing (emptyNan : Bool) (a : Cell) : Prop := a = .none ∨ a = .nan ∨ (emptyNan = true ∧ a = .str "")

/-- The cells count as the same.  The last two lines are not meant: with a tolerance NaN counts as the same as every
finite number, and as an infinity if the NaN comes first. -/
def CellsAgree (o : SameOpts) (a b : Cell) : Prop :=
  Equal a b ∨ (o.nansSame = true ∧ Missing o.emptyNan a ∧ Missing o.emptyNan b) ∨
    (0 < o.eps ∧ ((∃ x y, finiteOf a = some x ∧ finiteOf b = some y ∧ Close o.eps x y) ∨
      (a = .nan ∧ (b = .nan ∨ (finiteOf b).isSome ∨ Infinite b)) ∨
      (b = .nan ∧ (finiteOf a).isSome)))

/-- The rows have the same fields and agree in all of them. -/
def RowsAgree (o : SameOpts) (r1 r2 : RowVal) : Prop :=
  (∀ f, f ∈ PyDict.keys r1 ↔ f ∈ PyDict.keys r2) ∧
    ∀ f a b, PyDict.get? r1 f = some a → PyDict.get? r2 f = some b → CellsAgree o a b

/-- What is found to be the same: with primary key, the same keys and for each key rows that agree; without, as many rows,
and for each row of the first a row of the second. -/
def TabsAgree (o : SameOpts) : OutTab → OutTab → Prop
  | .tab (.keyed d1), .tab (.keyed d2) => (∀ k, k ∈ PyDict.keys d1 ↔ k ∈ PyDict.keys d2) ∧
      ∀ k r1 r2, PyDict.get? d1 k = some r1 → PyDict.get? d2 k = some r2 → RowsAgree o r1 r2
  | .tab (.plain rows1), .tab (.plain rows2) => rows1.length = rows2.length ∧ ∀ r1 ∈ rows1, ∃ r2 ∈ rows2, RowsAgree o r1 r2
  | .gen c1 rows1, .gen c2 rows2 =>
    (rows1.filterMap (initRow c1)).length = (rows2.filterMap (initRow c2)).length ∧
      ∀ r1 ∈ rows1.filterMap (initRow c1), ∃ r2 ∈ rows2.filterMap (initRow c2), RowsAgree o r1 r2
  | .frame v, .frame w => v.cols = [] ∧ w.cols = []
  | _, _ => False

/-- The rows of the tables can be paired so that each pair agrees. -/
def Paired (o : SameOpts) (rows1 rows2 : List RowVal) : Prop :=
  ∃ rows2', rows2'.Perm rows2 ∧ Pairwise2 (RowsAgree o) rows1 rows2'

/-- Python dictionaries have distinct keys. -/
def DictTab : OutTab → Prop
  | .tab (.keyed d) => (PyDict.keys d).Nodup ∧ ∀ p ∈ d, (PyDict.keys p.2).Nodup
  | .tab (.plain rows) => ∀ r ∈ rows, (PyDict.keys r).Nodup
  | .gen c rows => ∀ r ∈ rows.filterMap (initRow c), (PyDict.keys r).Nodup
  | .frame _ => True

end Ticdat.Spec
