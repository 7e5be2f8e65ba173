import Verif.Model.Init
import Verif.Spec.Rows
/-!
# Specification of building tables from rows
-/
namespace Ticdat.Spec

/-- The row stored for `x` in a table with the data fields of `c`: a dictionary may leave out fields and gets defaults, a
sequence is taken by position, a bare value is the one data field. -/
def RowGives (c : TabClass) : RowIn → RowVal → Prop
  | .dict d, row => (∀ f ∈ PyDict.keys d, f ∈ c.dfs) ∧ row = filledRow c d
  | .seq vs, row => vs.length = c.dfs.length ∧ row = c.dfs.zip vs
  | .scalar v, row => ∃ f, c.dfs = [f] ∧ row = [(f, v)]

/-- A row of all fields (key fields and data fields) is acceptable. -/
def RowFits (fields : List String) : RowIn → Prop
  | .dict d => ∀ f ∈ PyDict.keys d, f ∈ fields
  | .seq vs => vs.length = fields.length
  | .scalar _ => fields.length = 1

/-- The cell of field `f` in such a row; a dictionary that has not got the field counts as zero. -/
def cellOf (fields : List String) (r : RowIn) (f : String) : Cell :=
  match r with
  | .dict d => (PyDict.get? d f).getD (.num (.fin 0))
  | .seq vs => (vs[fields.idxOf f]?).getD (.num (.fin 0))
  | .scalar v => v

/-- The primary key of such a row. -/
def keyOf (c : TabClass) (r : RowIn) : KeyArg :=
  match c.pks with
  | [p] => .one (cellOf (c.pks ++ c.dfs) r p)
  | ps => .tup (ps.map (cellOf (c.pks ++ c.dfs) r))

/-- The data fields of such a row. -/
def dataOf (c : TabClass) (r : RowIn) : RowVal := c.dfs.map (fun f => (f, cellOf (c.pks ++ c.dfs) r f))

/-- Dictionaries have distinct keys. -/
def DictRow : RowIn → Prop
  | .dict d => (PyDict.keys d).Nodup
  | _ => True

/-- A table value fits its class: keys are scalars for one key field and tuples of the right length otherwise and are
distinct, rows have exactly the data fields in order. -/
def WellShaped (c : TabClass) : TabVal → Prop
  | .keyed d => c.pks ≠ [] ∧ (PyDict.keys d).Nodup ∧
      ∀ p ∈ d, KeyShape c.pks.length p.1 ∧ PyDict.keys p.2 = c.dfs
  | .plain rows => c.pks = [] ∧ ∀ r ∈ rows, PyDict.keys r = c.dfs

end Ticdat.Spec
