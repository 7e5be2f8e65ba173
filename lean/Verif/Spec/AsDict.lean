import Verif.Model.AsDict
import Verif.Spec.Good
/-!
# Specification of `as_dict`
-/
namespace Ticdat.Spec

/-- A table of a data object fits its kind. -/
def KindShape : TabKind → OutTab → Prop
  | .plain c, .tab v => WellShaped c v
  | .generic, .frame _ => True
  | .generator c, .gen c' _ => c' = c
  | _, _ => False

/-- A data object of the schema: a table for every name of the schema, and no others. -/
def DatShape (kinds : List (String × TabKind)) (obj : PyDict String OutTab) : Prop :=
  PyDict.keys obj = kinds.map Prod.fst ∧ ∀ tk ∈ kinds, ∀ v, PyDict.get? obj tk.1 = some v → KindShape tk.2 v

/-- What a table is in the dictionary: for a table with primary key a dictionary from keys to dictionaries, for a table
without a list of dictionaries, for a generic table what `to_dict` gives. -/
def DictOf (td : Frame → AttrVal) : OutTab → AttrVal → Prop
  | .tab (.keyed d), a => ∃ d', a = .tab (.dict d') ∧ PyDict.keys d' = PyDict.keys d ∧
      ∀ k row, PyDict.get? d k = some row → PyDict.get? d' k = some (.dict row)
  | .tab (.plain rows), a => a = .tab (.seq (rows.map .dict))
  | .frame v, a => a = td v
  | .gen _ _, _ => False

/-- The DataFrame is what `DataFrame(..)` makes of its `to_dict`, and the constructor does not take it for a table that
has lost rows: the dictionary has an entry for every column. -/
def FrameComesBack (mk : AttrVal → Option Frame) (td : Frame → AttrVal) (policy : DupPolicy) (v : Frame) : Prop :=
  mk (td v) = some v ∧ (policy = .assert → ∀ n, (td v).len = some n → n ≤ v.rows.length)

end Ticdat.Spec
