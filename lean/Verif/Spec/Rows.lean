import Verif.Model.Rows
/-!
# Specifications for rows, tables, freezing and copies
-/
namespace Ticdat.Spec

/-- The row that assigning a `dict` stores: the supplied value, else the default of the field, else zero. -/
def filledRow (c : TabClass) (d : PyDict String Cell) : PyDict String Cell :=
  c.dfs.map (fun f => (f,
    match PyDict.get? d f with
    | some v => v
    | none =>
      match PyDict.get? c.defaults f with
      | some v => v
      | none => .num (.fin 0)))

/-- A key has as many entries as the table has primary key fields: a scalar for one field, a tuple otherwise. -/
def KeyShape (n : Nat) : KeyArg → Prop
  | .one _ => n = 1
  | .tup vs => n = vs.length ∧ n ≠ 1

/-- A table object that refuses changes: a frozen dictionary or a tuple. -/
def TabFrozen : TabObj → Prop
  | .dict _ _ b => b = true
  | .list _ _ => False
  | .tuple _ => True

/-- A frozen data object: it is flagged, each of its tables refuses changes, and so does each row of these. -/
def FrozenDat (ts : List String) (w : World) (d : Nat) : Prop :=
  ∃ o, w.dats[d]? = some o ∧ o.frozen = true ∧ ∀ t ∈ ts, ∃ a tab, PyDict.get? o.tabs t = some a ∧
    w.tabs[a]? = some tab ∧ TabFrozen tab ∧ ∀ b ∈ tab.addrs, ∃ r, w.rows[b]? = some r ∧ r.frozen = true

/-- `freeze_me` visits every table of the schema, in any order. -/
def FreezesAll (ts : List String) : Op → Prop
  | .freeze _ order => ∀ t, t ∈ order ↔ t ∈ ts
  | _ => True

/-- The operation stores an object in the table at address `a` as it is, without the row factory. -/
def RawStore (a : Nat) : Op → Prop
  | .tab b (.update _ _) => a = b
  | .tab b (.setdefault _ _) => a = b
  | .tab b (.ior _ _) => a = b
  | _ => False

end Ticdat.Spec
