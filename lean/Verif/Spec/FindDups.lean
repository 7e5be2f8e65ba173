import Verif.Model.TableIO
import Verif.Model.Utils
import Verif.Spec.Rows
/-!
# What `find_duplicates` of a file should say about what the reader makes of the file (C67)

A record is the list of its cells in the order of the fields, primary key fields first.
-/
namespace Ticdat.Spec

/-- The primary key of a record: the value of a single key field, or the tuple of the key fields. -/
def recordKey (n : Nat) (r : List Cell) : PKey Cell :=
  match r.take n with
  | [v] => .one v
  | vs => .many vs

/-- How many records have the key. -/
def keyCount (n : Nat) (rows : List (List Cell)) (k : PKey Cell) : Nat :=
  rows.countP (fun r => decide (recordKey n r = k))

/-- What is reported for a table is exact: nothing if all its records have different keys, and otherwise the keys that occur
twice or more, each with the number of records that have it. -/
def ReportsTable (n : Nat) (rows : List (List Cell)) (rep : Option (PyDict (PKey Cell) Nat)) : Prop :=
  (rep = none ↔ ∀ k, keyCount n rows k ≤ 1) ∧
  ∀ d, rep = some d → (PyDict.keys d).Nodup ∧ ∀ k m, PyDict.get? d k = some m ↔ 2 ≤ m ∧ keyCount n rows k = m

/-- The number of records that share a key with an earlier one, according to a report. -/
def surplus (rep : Option (PyDict (PKey Cell) Nat)) : Nat := ((rep.getD []).map (fun p => p.2 - 1)).sum

/-- The last record with the given key cells. -/
def lastRecord (n : Nat) (rows : List (List Cell)) (key : List Cell) : Option (List Cell) :=
  rows.reverse.find? (fun r => decide (r.take n = key))

/-- The table has the keys of the records, and for each key the data of the last record with that key. -/
def HoldsLast (c : TabClass) (rows : List (List Cell)) (tab : TabVal) : Prop :=
  ∃ d, tab = .keyed d ∧ (PyDict.keys d).Nodup ∧ (∀ k ∈ PyDict.keys d, KeyShape c.pks.length k) ∧
    ∀ k, KeyShape c.pks.length k →
      PyDict.get? d k = (lastRecord c.pks.length rows (keyCells k)).map (fun r => c.dfs.zip (r.drop c.pks.length))

/-- Two readings of the same records give the same key to the same records. -/
def SameKeys (n : Nat) (a b : List (List Cell)) : Prop :=
  ∀ p ∈ a.zip b, ∀ q ∈ a.zip b, (p.1.take n = q.1.take n ↔ p.2.take n = q.2.take n)

/-- The table was read from the records: it holds, for each key, the last record with it, and it has as many rows fewer than
there are records as the report says that there are surplus records.  (The values, not the keys, of the parameters table
are adjusted after reading.) -/
def ReadAs (params : Params) (tc : String × TabClass) (rows : List (List Cell)) (rep : Option (PyDict (PKey Cell) Nat))
    (dat : PyDict String TabVal) : Prop :=
  ∃ tab, PyDict.get? dat tc.1 = some tab ∧ tab.size + surplus rep = rows.length ∧
    ((params = [] ∨ tc.1 ≠ "parameters") → HoldsLast tc.2 rows tab)

end Ticdat.Spec
