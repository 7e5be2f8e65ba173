import Verif.Model.Implied
/-!
# Foreign key links (`enable_foreign_key_links`, `_try_make_foreign_links`)

After `enable_foreign_key_links` the constructor of a `TicDat` hangs, on every row of a foreign table, an attribute
named after the native table.  Its value is a table with the native rows that refer to the foreign row, or the one
native row itself when the foreign key is one-to-one.  `none` models a raised exception.
-/
namespace Ticdat
variable {V : Type} [DecidableEq V]

/-- A row object, named by the table that holds it and its key there: the constructor makes one object per row
(ticdatfactory.py:776-861). -/
abbrev RowRef (V : Type) := String × PKey V

/-- The value of a link attribute: a `TicDatDict` made by `ticdattablefactory(..., linkname, new_pk, lambda x: x)`
(ticdatfactory.py:888-894), with its key length, or a row (ticdatfactory.py:902-904). -/
inductive Link (V : Type) where
  | table (keylen : Nat) (rows : PyDict (PKey V) (RowRef V))
  | row (r : RowRef V)
deriving DecidableEq, Repr

/-- The link attributes that have been set: `(table, key, attribute name)` to value. -/
abbrev Links (V : Type) := PyDict (String × PKey V × String) (Link V)

/-- `can_link_w_me` (ticdatfactory.py:868-869); `gens` are the generator tables. -/
def canLink (s : Schema) (gens : List String) (t : String) : Bool :=
  decide (t ∉ gens) && decide (s.pks t ≠ [])

/-- The names without a leading underscore that `hasattr` finds on a fresh row: those of a `TicDatDataRow`
(utils.py:1062-1107), and those of a dictionary for a table without data fields (utils.py:1054-1058). -/
def rowMethods (s : Schema) (t : String) : List String :=
  if s.dfs t = [] then
    ["clear", "copy", "fromkeys", "get", "items", "keys", "pop", "popitem", "setdefault", "update", "values"]
  else ["keys", "items", "values"]

/-- `(key,) if not containerish(key) else key` (ticdatfactory.py:896). -/
def keyTuple : PKey V → List V
  | .one v => [v]
  | .many vs => vs
  | .idx _ => []

/-- `x[0] if len(x) == 1 else x` (ticdatfactory.py:899, 909). -/
def oneOrTuple : List V → PKey V
  | [v] => .one v
  | vs => .many vs

/-- The check of `TicDatDict.__setitem__` (ticdatfactory.py:708-711):
`containerish(key) == (keylen > 1) and (keylen == 1 or keylen == len(key))`. -/
def linkKeyFits (keylen : Nat) : PKey V → Bool
  | .many vs => decide (1 < keylen) && (decide (keylen = 1) || decide (keylen = vs.length))
  | _ => !decide (1 < keylen) && decide (keylen = 1)

/-- `[local_posn[x] for x in foreign_pk]` (ticdatfactory.py:884-885): the position among the native table's fields of
the field that each foreign key field is mapped from. -/
def localPosn (s : Schema) (k : FK) : Option (List Nat) :=
  (s.pks k.foreign).mapM (fun x => do
    let nf ← k.foreignToNative.get? x
    if nf ∈ s.allFields k.native then some ((s.allFields k.native).idxOf nf) else none)

/-- The key under which a native row is put into the link table (ticdatfactory.py:906-909): the values of its key at
the positions that are not used by the mapping.  `keyrow[:-len(row)] if row else keyrow` is written with `take`. -/
def linkKey (posn : List Nat) (pk : PKey V) (row : List V) : PKey V :=
  let keyrow := keyTuple pk ++ row
  let key := if row = [] then keyrow else keyrow.take (keyrow.length - row.length)
  oneOrTuple ((key.zipIdx.filter (fun q => decide (q.2 ∉ posn))).map Prod.fst)

/-- `lookup` (ticdatfactory.py:898-899). -/
def linkLookup (posn : List Nat) (pk : PKey V) (row : List V) : Option (PKey V) := do
  let look ← posn.mapM (fun i => (keyTuple pk ++ row)[i]?)
  return oneOrTuple look

/-- The body of the loop over the native rows (ticdatfactory.py:895-910). -/
def linkRow (s : Schema) (k : FK) (name : String) (posn : List Nat) (ft : PyDict (PKey V) (List V))
    (acc : Links V) (p : PKey V × List V) : Option (Links V) := do
  let look ← linkLookup posn p.1 p.2
  match ft.get? look with
  | none => some acc
  | some _ =>
    if cardinality s k = "one-to-one" then
      if acc.has (k.foreign, look, name) || decide (name ∈ rowMethods s k.foreign) then none
      else some (acc.set (k.foreign, look, name) (.row (k.native, p.1)))
    else
      match acc.get? (k.foreign, look, name) with
      | some (.table n rows) =>
        if linkKeyFits n (linkKey posn p.1 p.2) then
          some (acc.set (k.foreign, look, name) (.table n (rows.set (linkKey posn p.1 p.2) (k.native, p.1))))
        else none
      | _ => none

/-- The key fields of a link table (ticdatfactory.py:888). -/
def linkPk (s : Schema) (k : FK) : List String :=
  (s.pks k.native).filter (fun x => decide (x ∉ k.mapping.map Prod.fst))

/-- The loop body for one foreign key (ticdatfactory.py:870-910).  `name` is its link name, `generics` the generic
tables (ticdatfactory.py:698 asserts that a link table is not named like one). -/
def linkFK (s : Schema) (gens generics : List String) (name : String) (db : DB V) (acc : Links V) (k : FK) :
    Option (Links V) :=
  if canLink s gens k.native && canLink s gens k.foreign && decide (name ∉ ["keys", "items", "values"]) then
    match db k.foreign, db k.native with
    | .dict ft, .dict nt => do
      let posn ← localPosn s k
      let acc1 ←
        if cardinality s k = "one-to-one" then some acc
        else if name ∈ generics then none
        else some (ft.foldl (fun a p => a.set (k.foreign, p.1, name) (.table (linkPk s k).length [])) acc)
      nt.foldlM (linkRow s k name posn ft) acc1
    | _, _ => none
  else some acc

/-- `_try_make_foreign_links` with links enabled (ticdatfactory.py:862-910).  `fks` is the foreign keys in the order
in which they are iterated (an arbitrary one, they come from sets), `name` their link names. -/
def makeLinks (s : Schema) (gens generics : List String) (name : FK → String) (fks : List FK) (db : DB V) :
    Option (Links V) :=
  if fks.any (fun k => !simpleFK s k) then none
  else fks.foldlM (fun acc k => linkFK s gens generics (name k) db acc k) []

/-- Equality of the sets of native fields of two foreign keys. -/
def sameNative (k k' : FK) : Bool :=
  k.mapping.all (fun p => decide (p.1 ∈ k'.mapping.map Prod.fst)) &&
    k'.mapping.all (fun p => decide (p.1 ∈ k.mapping.map Prod.fst))

/-- The simple foreign keys between the same two tables (ticdatfactory.py:596-598). -/
def siblings (s : Schema) (fks : List FK) (k : FK) : List FK :=
  fks.filter (fun k' => decide (k'.native = k.native) && decide (k'.foreign = k.foreign) && simpleFK s k')

/-- `"_".join([a] + l)`. -/
def joinUnderscore (a : String) (l : List String) : String := l.foldl (fun acc x => acc ++ "_" ++ x) a

/-- `self._linkName[native, foreign, frozenset(nativefields)]` (ticdatfactory.py:593-608).  `ord` is the order in which
a set of field names is iterated, which Python does not fix. -/
def linkName (ord : List String → List String) (s : Schema) (fks : List FK) (k : FK) : String :=
  let sibs := siblings s fks k
  -- the first foreign key with this set of native fields stands for the set
  let me := ((sibs.find? (sameNative k)).getD k).mapping.map Prod.fst
  let others := sibs.filter (fun k' => !sameNative k k')
  if others = [] then k.native
  else
    let trial := me.filter (fun f => others.all (fun k' => decide (f ∉ k'.mapping.map Prod.fst)))
    joinUnderscore k.native (if trial = [] then ord me else ord trial)

/-- Reading `link[item]` from a link table that is not frozen (ticdatfactory.py:713-716 with the identity as row
factory): a missing key is added, with `{}` for its row.  `none` in the result is that `{}`. -/
def linkGetItem (keylen : Nat) (frozen : Bool) (rows : PyDict (PKey V) (Option (RowRef V))) (item : PKey V) :
    Option (PyDict (PKey V) (Option (RowRef V)) × Option (RowRef V)) :=
  match rows.get? item with
  | some r => some (rows, r)
  | none =>
    if frozen then none
    else if linkKeyFits keylen item then some (rows.set item none, none)
    else none

/-- The tables that `_freeze` freezes besides the tables of the data object (ticdatfactory.py:760-763): those in
`getattr(self, "_allDataDicts", ())`.  `attrs` are the lists of tables held by the data object, by attribute name. -/
def alsoFrozen (attrs : PyDict String (List Nat)) : List Nat := (attrs.get? "_allDataDicts").getD []

/-- The attribute in which the constructor collects the tables it makes (ticdatfactory.py:777, 845-858, 889). -/
def collectedTables (tables : List Nat) : PyDict String (List Nat) := [("_all_data_dicts", tables)]

end Ticdat
