import Verif.Model.Schema
/-!
# `find_foreign_key_failures` and `remove_foreign_key_failures` (PanDatFactory)

A `DataFrame` is the list of its rows; a row maps column names to cells (`none`: no such column).  Extra columns are
allowed, the index is not modelled.  NaN cells are not modelled (`V` has an equality).
-/
namespace Ticdat
variable {V : Type} [DecidableEq V]

/-- One row of a `DataFrame`, as the `fieldname -> data` dictionary of utils.py:65. -/
abbrev PRow (V : Type) := String → Option V

/-- A `PanDat` object: the rows of each table's `DataFrame`. -/
abbrev PanDB (V : Type) := String → List (PRow V)

/-- `df.drop_duplicates(fields)` (pandatfactory.py:1465, 1469): keep the first row for each combination of values.
`seen` lists the combinations met so far. -/
def dropDups (fs : List String) : List (PRow V) → List (List (Option V)) → List (PRow V)
  | [], _ => []
  | r :: rs, seen =>
    if fs.map r ∈ seen then dropDups fs rs seen else r :: dropDups fs rs (fs.map r :: seen)

/-- `for _ in mappings: parent[_.native_field] = parent[_.foreign_field]` (pandatfactory.py:1466, 1470-1471): the
assignments are made one after the other on the same frame. -/
def parentRow (m : List (String × String)) (row : PRow V) : PRow V :=
  m.foldl (fun r p f => if f = p.1 then r p.2 else r f) row

/-- Is a row of the native table unmatched after the join (pandatfactory.py:1457-1485)?  Both frames are indexed by
the native fields, the join marks child rows whose index occurs in the parent.  The `TypeError` fallback of lines
1480-1481 (incomparable index types) is not modelled. -/
def panRowFails (db : PanDB V) (k : FK) (child : PRow V) : Bool :=
  !((dropDups (k.mapping.map Prod.snd) (db k.foreign) []).any
      (fun par => decide (k.mapping.map (fun p => child p.1) =
        k.mapping.map (fun p => parentRow k.mapping par p.1))))

/-- `faster_df_apply(child, bad, trip_wire_check=check_too_many)` (utils.py:38-75 with pandatfactory.py:1447-1452):
one flag per row; `n` counts the flagged rows so far over all foreign keys.  When the count reaches the limit the
remaining rows are flagged `False`. -/
def panFlags (bad : PRow V → Bool) (lim : Option Nat) : List (PRow V) → Nat → List Bool × Nat
  | [], n => ([], n)
  | r :: rs, n =>
    if bad r then
      let n' := match lim with | none => n | some _ => n + 1
      if (match lim with | none => false | some m => decide (m ≤ n')) then
        (true :: rs.map (fun _ => false), n')
      else
        let (fl, n'') := panFlags bad lim rs n'
        (true :: fl, n'')
    else
      let (fl, n') := panFlags bad lim rs n
      (false :: fl, n')

/-- `_find_foreign_key_failure_rows` (pandatfactory.py:1441-1494): the keys of the returned dictionary with their row
flags, in the order of insertion. -/
def panFindRows (db : PanDB V) (lim : Option Nat) : List FK → Nat → List (FK × List Bool)
  | [], _ => []
  | k :: ks, n =>
    if (db k.native).any (panRowFails db k) then
      let (fl, n') := panFlags (panRowFails db k) lim (db k.native) n
      if (match lim with | none => false | some m => decide (m ≤ n')) then [(k, fl)]
      else (k, fl) :: panFindRows db lim ks n'
    else panFindRows db lim ks n

/-- `df[[not _ for _ in rows]]` (pandatfactory.py:1532). -/
def dropFlagged {A : Type} : List Bool → List A → List A
  | true :: fl, _ :: rs => dropFlagged fl rs
  | false :: fl, r :: rs => r :: dropFlagged fl rs
  | _, _ => []

/-- `remove_foreign_key_failures` (pandatfactory.py:1515-1535): while there are failures, drop the failing rows of the
first key of the failures dictionary.  `fks` is the iteration order of the factory's foreign keys (it comes from a
Python set, so it may be any order); `fuel` bounds the number of iterations of the `while` loop. -/
def panRemove (fks : List FK) : Nat → PanDB V → Option (PanDB V)
  | 0, _ => none
  | fuel + 1, db =>
    match panFindRows db none fks 0 with
    | [] => some db
    | (k, fl) :: _ =>
      panRemove fks fuel (fun t => if t = k.native then dropFlagged fl (db t) else db t)

end Ticdat
