import Verif.Model.Frame
import Verif.Model.Utils
/-!
# `Sloc` (utils.py:1113-1156)
-/
namespace Ticdat

/-- One entry of a key given to `.loc` or `.sloc`: a label or a slice. -/
inductive LocEntry where
  | label (a : Cell)
  | slice (start stop step : Option Cell)
deriving DecidableEq, Repr

/-- A key given to `.loc` or `.sloc`: a tuple or a single entry. -/
inductive LocKey where
  | one (e : LocEntry)
  | tup (es : List LocEntry)
deriving DecidableEq, Repr

/-- A column of a data frame as a `Series`: the labels and the value of each row.  Simplifications: the values of a series that
`.loc` gives are modelled with all of their labels, whichever levels pandas drops from the index; a single value is a series with one
row. -/
abbrev Series := List (List Cell × Cell)

/-- `series.loc[key]` of pandas; `none` is an exception. -/
abbrev Loc := Series → LocKey → Option Series

/-- `isinstance(k, slice) and (k.start == k.step == k.stop == None)` (utils.py:1136-1137). -/
def LocEntry.isFull : LocEntry → Bool
  | .label _ => false
  | .slice start stop step => decide (start = step) && decide (step = stop) && decide (stop = none)

/-- `Sloc.__getitem__` (utils.py:1132-1139); `none` is an exception.  Labels are taken not to be containers themselves. -/
def slocGet (loc : Loc) (s : Series) (key : LocKey) : Option Series :=
  match loc s key with
  | some r => some r
  | none =>
    match key with
    | .one _ => none
    | .tup es => if es.any LocEntry.isFull then some [] else none

/-- `Sloc.add_sloc` on a data frame (utils.py:1141-1156): the columns that get the attribute `.sloc`.  The index is a `MultiIndex` if it has
been set to more than one field. -/
def slocColumns (v : Frame) : List Label := if 2 ≤ v.index.length then v.cols else []

/-- The columns with an attribute `.sloc` in one table of `copy_to_pandas` (ticdatfactory.py:1654-1675): `add_sloc` is called for tables
with a primary key that are not empty. -/
def copySlocColumns (tab : TabVal) (v : Frame) : List Label :=
  if tab.size = 0 then []
  else
    match tab with
    | .keyed _ => slocColumns v
    | .plain _ => []

/-- `df[col]` at the position of the column. -/
def Frame.series (v : Frame) (j : Nat) : Series := v.rows.filterMap (fun r => (r.2[j]?).map (fun x => (r.1, x)))

end Ticdat
