import Verif.Model.Schema
/-!
# `find_foreign_key_failures` and `remove_foreign_key_failures` (TicDatFactory)

Both functions are modelled in the `Option` monad: `none` stands for a raised Python exception.
-/
namespace Ticdat
variable {V : Type} [DecidableEq V]

/-- `getcell` (ticdatfactory.py:1729-1736): the value of field `f` in the row `(pk, row)` of table `t`.
`none` models the exceptions (the assertion on line 1730, an `IndexError`, or indexing a scalar key). -/
def getcell (s : Schema) (t : String) (pk : PKey V) (row : List V) (f : String) : Option V :=
  if f ∈ s.allFields t then
    if [f] = s.pks t then
      match pk with
      | .one v => some v
      | _ => none
    else if f ∈ s.dfs t then row[(s.dfs t).idxOf f]?
    else
      match pk with
      | .many vs => vs[(s.pks t).idxOf f]?
      | _ => none
  else none

/-- `ffs` (ticdatfactory.py:1762-1764): the mapped foreign fields, in the foreign table's field order. -/
def foreignFields (s : Schema) (k : FK) : List String :=
  (s.allFields k.foreign).filter (fun ff => k.foreignToNative.has ff)

/-- The set of tuples built by `get_table_data` when the looked-up fields are not the primary key
(ticdatfactory.py:1742-1747). -/
def tupleSet (s : Schema) (t : String) (fields : List String) :
    List (PKey V × List V) → Option (List (List V))
  | [] => some []
  | (pk, row) :: rest => do
    let tup ← fields.mapM (getcell s t pk row)
    let more ← tupleSet s t fields rest
    return tup :: more

/-- `foreign_look_up in foreign_look_into` (ticdatfactory.py:1739-1747 and 1765-1770).  When the fields are the
primary key the table itself is looked into: a dictionary by key (scalar for a one-field key); for a table with
no primary key the fields are `()` and the list of rows never contains the tuple `()`. -/
def lookInto (s : Schema) (db : DB V) (t : String) (ffs : List String) (look : List V) : Option Bool :=
  if ffs = s.pks t then
    match db t with
    | .dict rows =>
      match look with
      | [v] => some (PyDict.has rows (.one v))
      | vs => some (PyDict.has rows (.many vs))
    | .list _ => some false
  else do
    let tups ← tupleSet s t ffs (db t).items
    return decide (look ∈ tups)

/-- One row of the loop body (ticdatfactory.py:1762-1770): does `(pk, row)` fail to find a match? -/
def rowFails (s : Schema) (db : DB V) (k : FK) (pk : PKey V) (row : List V) : Option Bool := do
  let look ← (foreignFields s k).mapM (fun ff => do
    let nf ← k.foreignToNative.get? ff
    getcell s k.native pk row nf)
  let found ← lookInto s db k.foreign (foreignFields s k) look
  return !found

/-- The native values recorded for a failing row (ticdatfactory.py:1772-1777). -/
def nativeValues (s : Schema) (k : FK) (pk : PKey V) (row : List V) : Option (List V) :=
  k.mapping.mapM (fun p => getcell s k.native pk row p.1)

/-- One failure: the foreign key, the failing row's key, and its native values. -/
structure FKEvent (V : Type) where
  fk : FK
  pk : PKey V
  vals : List V
deriving DecidableEq, Repr

/-- `inc_failures_trips_end` (ticdatfactory.py:1750-1753): `n` failures have been recorded, including the
latest.  `lim = none` is `max_failures = inf`. -/
def tripsEnd (lim : Option Nat) (n : Nat) : Bool :=
  match lim with
  | none => false
  | some m => decide (m ≤ n)

/-- The row loop of `populate_rtn` for one foreign key (ticdatfactory.py:1759-1779).  `acc` is the failures so
far in reverse order of discovery; the flag says the function returned early. -/
def scanRows (s : Schema) (db : DB V) (lim : Option Nat) (k : FK) :
    List (PKey V × List V) → List (FKEvent V) → Option (List (FKEvent V) × Bool)
  | [], acc => some (acc, false)
  | (pk, row) :: rest, acc => do
    let bad ← rowFails s db k pk row
    if bad then
      let vals ← nativeValues s k pk row
      let acc' := { fk := k, pk := pk, vals := vals } :: acc
      if tripsEnd lim acc'.length then return (acc', true)
      scanRows s db lim k rest acc'
    else scanRows s db lim k rest acc

/-- `populate_rtn` (ticdatfactory.py:1749-1779).  `_foreign_keys_by_native()` groups the keys by native table in
frozensets; the grouping only fixes an iteration order, so the model takes the keys in an arbitrary order. -/
def scanFKs (s : Schema) (db : DB V) (lim : Option Nat) :
    List FK → List (FKEvent V) → Option (List (FKEvent V))
  | [], acc => some acc
  | k :: rest, acc => do
    let (acc', stop) ← scanRows s db lim k (db k.native).items acc
    if stop then return acc'
    scanFKs s db lim rest acc'

/-- The value of the returned dictionary at one foreign key: `native_values` and `native_pks`
(ticdatfactory.py:1782-1784), both built as sets. -/
structure FKFailures (V : Type) where
  nativeValues : List (List V)
  nativePks : List (PKey V)
deriving DecidableEq, Repr

/-- `rtn_values[fk].add(..)`, `rtn_pks[fk].add(..)` (ticdatfactory.py:1771-1777). -/
def addEvent (d : PyDict FK (FKFailures V)) (e : FKEvent V) : PyDict FK (FKFailures V) :=
  match d.get? e.fk with
  | none => d.set e.fk { nativeValues := [e.vals], nativePks := [e.pk] }
  | some f => d.set e.fk { nativeValues := setAdd f.nativeValues e.vals, nativePks := setAdd f.nativePks e.pk }

/-- `find_foreign_key_failures(tic_dat, max_failures=lim)` (ticdatfactory.py:1690-1787, verbosity "High").
The keys of the returned dictionary are foreign keys. -/
def findFK (s : Schema) (fks : List FK) (db : DB V) (lim : Option Nat) :
    Option (PyDict FK (FKFailures V)) := do
  let events ← scanFKs s db lim fks []
  return events.reverse.foldl addEvent []

/-- `del tbl[pk]` guarded by `pk in tbl` (ticdatfactory.py:1822-1823). -/
def deleteKey (db : DB V) (t : String) (pk : PKey V) : DB V :=
  match db t with
  | .dict rows => fun t' => if t' = t then .dict (PyDict.erase rows pk) else db t'
  | .list _ => db

/-- `getattr(tic_dat, t).pop(i)` (ticdatfactory.py:1827); an index out of range raises. -/
def popRow (db : DB V) (t : String) (i : Nat) : Option (DB V) :=
  match db t with
  | .list rows => if i < rows.length then some (fun t' => if t' = t then .list (rows.eraseIdx i) else db t') else none
  | .dict _ => none

/-- The first loop of `remove_foreign_key_failures` (ticdatfactory.py:1817-1825): delete keyed rows now, collect
`(table, index)` pairs of un-keyed rows in a set. -/
def removeKeyed (s : Schema) : List (FK × FKFailures V) → DB V → List (String × Nat) →
    Option (DB V × List (String × Nat))
  | [], db, need => some (db, need)
  | (k, f) :: rest, db, need =>
    let rec go : List (PKey V) → DB V → List (String × Nat) → Option (DB V × List (String × Nat))
      | [], db, need => some (db, need)
      | pk :: pks, db, need =>
        if s.pks k.native ≠ [] then go pks (deleteKey db k.native pk) need
        else
          match pk with
          | .idx i => go pks db (setAdd need (k.native, i))
          | _ => none
    match go f.nativePks db need with
    | some (db', need') => removeKeyed s rest db' need'
    | none => none

/-- `(t, i) >= (t', i')` in Python's tuple order; used by `sorted(needs_removal, reverse=True)`. -/
def pairGE (a b : String × Nat) : Bool :=
  decide (b.1 < a.1) || (decide (a.1 = b.1) && decide (b.2 ≤ a.2))

/-- The second loop (ticdatfactory.py:1826-1827): pop the collected rows in descending order. -/
def popAll : List (String × Nat) → DB V → Option (DB V)
  | [], db => some db
  | (t, i) :: rest, db => do
    let db' ← popRow db t i
    popAll rest db'

/-- One round of `remove_foreign_key_failures` (ticdatfactory.py:1816-1827): the new data object, and whether
there were failures. -/
def removeRound (s : Schema) (fks : List FK) (db : DB V) : Option (DB V × Bool) := do
  let fails ← findFK s fks db none
  let (db1, need) ← removeKeyed s fails db []
  let db2 ← popAll (need.mergeSort pairGE) db1
  return (db2, !fails.isEmpty)

/-- `remove_foreign_key_failures` (ticdatfactory.py:1805-1830).  The recursion has no bound in the code; the
model takes fuel and `none` means "did not finish within `fuel` rounds or raised".  `fuel` is not a limit on the
theorems: they show that a number of rounds depending only on the data always suffices. -/
def removeFK (s : Schema) (fks : List FK) (propagate : Bool) : Nat → DB V → Option (DB V)
  | 0, _ => none
  | fuel + 1, db => do
    let (db', failed) ← removeRound s fks db
    if failed && propagate then removeFK s fks true fuel db' else return db'

end Ticdat
