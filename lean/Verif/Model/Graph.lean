import Verif.Model.Schema
import Verif.Model.PanFK
/-!
# Foreign key graph algorithms: circle warning, postgres and sqlite table orders, postgres write steps

The recursive Python functions have no depth bound; the models take `fuel` (depth) and return `none` when it runs out.
The theorems show which fuel is always enough, or that none is (an endless recursion).
-/
namespace Ticdat

/-- `fks.get(t, ())` mapped to the foreign tables (utils.py:1331-1333 and 1339; pgtd.py:101-105, 112-113;
sqlitetd.py:129-133, 244-245).  The code iterates over a set, so the order is arbitrary. -/
def fkChildren (fks : List FK) (t : String) : List String :=
  (fks.filter (fun k => k.native = t)).map FK.foreign

/-- `process_table` of `does_new_fk_complete_circle` (utils.py:1335-1340); `rtn` is the returned flag, set to true
once and never reset. -/
def circleVisit (fks : List FK) (target : String) : Nat → String → List String → Option Bool
  | 0, _, _ => none
  | fuel + 1, t, seen =>
    if t = target then some true
    else if t ∈ seen then some false
    else (fkChildren fks t).foldlM (fun b c => do
      let b' ← circleVisit fks target fuel c (seen ++ [t])
      return b || b') false

/-- `does_new_fk_complete_circle(native_tbl, foreign_tbl, tdf)` (utils.py:1330-1342). -/
def completesCircle (fks : List FK) (fuel : Nat) (native foreign : String) : Option Bool :=
  circleVisit fks native fuel foreign []

/-- `process_table` of the postgres `_ordered_tables` (pgtd.py:110-115). -/
def pgVisit (fks : List FK) : Nat → String → List String → List String → Option (List String)
  | 0, _, _, _ => none
  | fuel + 1, t, seen, rtn =>
    if t ∈ rtn ++ seen then some rtn
    else do
      let rtn' ← (fkChildren fks t).foldlM (fun acc c => pgVisit fks fuel c (seen ++ [t]) acc) rtn
      return rtn' ++ [t]

/-- The postgres `_ordered_tables` (pgtd.py:107-118). -/
def pgOrder (fks : List FK) (tables : List String) (fuel : Nat) : Option (List String) :=
  tables.foldlM (fun acc t => pgVisit fks fuel t [] acc) []

/-- `processTable` of the sqlite `_ordered_tables` (sqlitetd.py:243-247): no protection against cycles. -/
def sqlVisit (fks : List FK) : Nat → String → List String → Option (List String)
  | 0, _, _ => none
  | fuel + 1, t, rtn =>
    if t ∈ rtn then some rtn
    else do
      let rtn' ← (fkChildren fks t).foldlM (fun acc c => sqlVisit fks fuel c acc) rtn
      return rtn' ++ [t]

/-- The sqlite `_ordered_tables` (sqlitetd.py:240-249). -/
def sqlOrder (fks : List FK) (tables : List String) (fuel : Nat) : Option (List String) :=
  tables.foldlM (fun acc t => sqlVisit fks fuel t acc) []

variable {V : Type}

/-- The states of the database after each statement of `_handle_prexisting_rows` (pgtd.py:237-251): tables marked
"delete" are emptied one at a time, children first.  `order` is the result of `_ordered_tables`. -/
def deleteStates (del : String → Bool) : List String → PanDB V → List (PanDB V)
  | [], _ => []
  | t :: ts, st =>
    if del t then
      let st' : PanDB V := fun t' => if t' = t then [] else st t'
      st' :: deleteStates del ts st'
    else deleteStates del ts st

/-- The states after each `INSERT` of a list of rows into table `t` (pgtd.py:458-462: one statement per row; the
bulk variants, pgtd.py:456 and pandas `to_sql` at 584, pass through a subset of these states). -/
def insertRowStates (t : String) : List (PRow V) → PanDB V → List (PanDB V)
  | [], _ => []
  | r :: rs, st =>
    let st' : PanDB V := fun t' => if t' = t then st t' ++ [r] else st t'
    st' :: insertRowStates t rs st'

/-- The states after each `INSERT` (pgtd.py:381-410, 455-459): tables in dependency order. -/
def insertStates (dat : PanDB V) : List String → PanDB V → List (PanDB V)
  | [], _ => []
  | t :: ts, st =>
    let ss := insertRowStates t (dat t) st
    ss ++ insertStates dat ts (ss.getLastD st)

/-- Every state of the database during `write_data` (pgtd.py:412-463), the initial one included.  The write itself is
not modelled below the level of single statements, and primary key conflicts are not modelled. -/
def writeStates (order : List String) (del : String → Bool) (dat : PanDB V) (st : PanDB V) : List (PanDB V) :=
  let ds := st :: deleteStates del order.reverse st
  ds ++ insertStates dat order (ds.getLastD st)

end Ticdat
