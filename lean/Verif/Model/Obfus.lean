import Verif.Model.FindFK
import Verif.Model.Implied
/-!
# `obfusimplify`

Values of cells are an arbitrary type `V`, `str : String → V` gives the strings among them.  Python sets are iterated in
some order: `iter` gives that order.  `sort` is `sorted`, which raises for values that cannot be compared.  Generic and
generator tables are not modelled (the code refuses generator tables).
-/
namespace Ticdat
variable {V : Type} [DecidableEq V]

/-- `string.ascii_uppercase` (ticdatfactory.py:12). -/
def uppercase : List Char := "ABCDEFGHIJKLMNOPQRSTUVWXYZ".toList

/-- `chars = tuple(_ for _ in uppercase if _ != "I")` (ticdatfactory.py:2155). -/
def nameChars : List Char := uppercase.filter (fun c => decide (c ≠ 'I'))

/-- `baseConverter(number, base)` (utils.py:956-968), used as indices.  From `base` on the first entry is `number / power`,
a float, and indexing the tuple with it raises a `TypeError`: that is `none`. -/
def baseConverter (number base : Nat) : Option (List Nat) := if number < base then some [number] else none

/-- The name that `getname` yields for `rtnnum` (ticdatfactory.py:2154-2165); `letters` is `from_table`. -/
def nameAt (letters : List Char) (rtnnum : Nat) : Option (List Char) :=
  if rtnnum ≤ letters.length then some (letters.take rtnnum)
  else (baseConverter (rtnnum - letters.length - 1) nameChars.length).map
    (fun l => letters ++ l.map (fun i => nameChars.getD i 'A'))

/-- `while name in table_prepends.values(): name = next(namegetter)` (ticdatfactory.py:2166-2169).  The fuel is enough:
`nameAt` raises before it runs out. -/
def findName (letters : List Char) (used : List String) : Nat → Nat → Option String
  | 0, _ => none
  | fuel + 1, n =>
    (nameAt letters n).bind (fun name => if String.ofList name ∈ used then findName letters used fuel (n + 1) else some (String.ofList name))

/-- `from_table` (ticdatfactory.py:2156): the letters of `t.upper()` other than I. -/
def fromTable (upper : String → List Char) (t : String) : List Char := (upper t).filter (fun c => decide (c ∈ nameChars))

/-- The loop that gives each remaining entity table a prefix (ticdatfactory.py:2152-2170). -/
def addPrepends (upper : String → List Char) : List String → PyDict String String → Option (PyDict String String)
  | [], d => some d
  | t :: ts, d =>
    (findName (fromTable upper t) (d.map Prod.snd) ((fromTable upper t).length + 26) 1).bind
      (fun name => addPrepends upper ts (PyDict.set d t name))

/-- `entity_tables` before skipping (ticdatfactory.py:2133-2138): one primary key field, and no one-to-one foreign key. -/
def entityTables (s : Schema) (fks : List FK) : List String :=
  (PyDict.keys s).filter (fun t => decide ((s.pks t).length = 1) &&
    !fks.any (fun k => decide (k.native = t) && decide (cardinality s k = "one-to-one")))

/-- The check on a prefix that is passed in (ticdatfactory.py:2147-2148). -/
def goodPrepend (v : String) : Bool := v.toList.all (fun c => decide (c ∈ uppercase)) && decide (v.toList.getLast? ≠ some 'I')

/-- The value of a scalar key. -/
def PKey.scalar? : PKey V → Option V
  | .one v => some v
  | _ => none

/-- The keys of an entity table: `sorted(getattr(tic_dat, t))` iterates them (ticdatfactory.py:2175).  All keys of such a
table are scalars. -/
def tableKeys (db : DB V) (t : String) : List V :=
  (db t).items.filterMap (fun p => p.1.scalar?)

/-- The entries of `reverse_renamings` for one table (ticdatfactory.py:2175-2176). -/
def labelTable (sort : List V → Option (List V)) (db : DB V) (p : String × String) : Option (List ((String × V) × String)) :=
  (sort (tableKeys db p.1)).map (fun ks => ks.zipIdx.map (fun q => ((p.1, q.1), p.2 ++ toString (q.2 + 1))))

/-- `reverse_renamings` (ticdatfactory.py:2173-2176). -/
def reverseRenamings (sort : List V → Option (List V)) (db : DB V) (prepends : PyDict String String) :
    Option (PyDict (String × V) String) :=
  (prepends.mapM (labelTable sort db)).map (fun l => PyDict.ofList l.flatten)

/-- `foreign_keys` (ticdatfactory.py:2177-2183): the entity table each native field refers to; the last one wins. -/
def fieldEntity (fks : List FK) (prepends : PyDict String String) : PyDict (String × String) String :=
  PyDict.ofList ((fks.filter (fun k => PyDict.has prepends k.foreign)).flatMap
    (fun k => k.mapping.map (fun p => ((k.native, p.1), k.foreign))))

/-- One cell of `fix_all_row` (ticdatfactory.py:2188-2190); `none` is a `KeyError`. -/
def fixCell (str : String → V) (rr : PyDict (String × V) String) (fe : PyDict (String × String) String) (t f : String) (v : V) : Option V :=
  match PyDict.get? fe (t, f) with
  | some e => (PyDict.get? rr (e, v)).map str
  | none => some v

/-- `fix_all_row` on the named fields. -/
def fixRow (str : String → V) (rr : PyDict (String × V) String) (fe : PyDict (String × String) String) (t : String)
    (fields : List String) (vals : List V) : Option (List V) :=
  (fields.zip vals).mapM (fun p => fixCell str rr fe t p.1 p.2)

/-- The new primary key (ticdatfactory.py:2193-2205). -/
def fixKey (str : String → V) (rr : PyDict (String × V) String) (fe : PyDict (String × String) String) (t : String)
    (pks : List String) : PKey V → Option (PKey V)
  | .one v =>
    match pks with
    | [f] =>
      match PyDict.get? fe (t, f) with
      | some e => (PyDict.get? rr (e, v)).map (fun l => .one (str l))
      | none => some (.one (((PyDict.get? rr (t, v)).map str).getD v))
    | _ => none
  | .many vs => (fixRow str rr fe t pks vs).map .many
  | .idx i => some (.idx i)

/-- One table of the copy (ticdatfactory.py:2186-2210). -/
def fixTable (str : String → V) (rr : PyDict (String × V) String) (fe : PyDict (String × String) String) (s : Schema) (t : String) :
    TableData V → Option (TableData V)
  | .dict rows => (rows.mapM (fun p => (fixKey str rr fe t (s.pks t) p.1).bind
      (fun k => (fixRow str rr fe t (s.dfs t) p.2).map (fun r => (k, r))))).map (fun l => .dict (PyDict.ofList l))
  | .list rows => (rows.mapM (fixRow str rr fe t (s.dfs t))).map .list

/-- `obfusimplify(tic_dat, table_prepends, skip_tables)` (ticdatfactory.py:2099-2220) for a good data object; `fks0` are
the foreign keys of the factory, `fks` those of `better_self`, with the implied ones.  The result is the copy and the
renamings; `none` is a raised exception. -/
def obfusimplify (iter : List String → List String) (upper : String → List Char) (sort : List V → Option (List V))
    (str : String → V) (s : Schema) (fks0 fks : List FK) (db : DB V) (tablePrepends : PyDict String String)
    (skip : List String) : Option (PyDict String (TableData V) × PyDict String (String × V)) := do
  let fails ← findFK s fks0 db none
  if fails = [] ∧ (∀ t ∈ PyDict.keys tablePrepends, t ∉ skip) ∧ (∀ t ∈ skip, t ∈ entityTables s fks) then
    let entities := (entityTables s fks).filter (fun t => decide (t ∉ skip))
    if (∀ p ∈ tablePrepends, p.1 ∈ entities ∧ goodPrepend p.2 = true) ∧ (tablePrepends.map Prod.snd).Nodup then
      let prepends ← addPrepends upper (iter (entities.filter (fun t => decide (t ∉ PyDict.keys tablePrepends)))) tablePrepends
      let rr ← reverseRenamings sort db prepends
      let tabs ← (PyDict.keys s).mapM (fun t => (fixTable str rr (fieldEntity fks prepends) s t (db t)).map (fun d => (t, d)))
      let fkFails ← findFK s fks (fun t => (PyDict.get? tabs t).getD (.list [])) none
      if fkFails = [] then
        return (tabs, PyDict.ofList (rr.map (fun p => (p.2, p.1))))
      else none
    else none
  else none

end Ticdat
