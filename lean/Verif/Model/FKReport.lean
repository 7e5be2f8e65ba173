import Verif.Model.FindFK
import Verif.Model.PanFK
import Verif.Model.Implied
/-!
# What `find_foreign_key_failures` returns: `verbosity` and `as_table`

The check that the data object is good is not repeated here.
-/
namespace Ticdat
variable {V : Type} [DecidableEq V]

/-- The `mapping` of a `ForeignKey` (ticdatfactory.py:485-486, pandatfactory.py:860-861): a bare `ForeignKeyMapping` for one pair of
fields, else a tuple of them. -/
inductive FKMap where
  | one (native foreign : String)
  | many (pairs : List (String × String))
deriving DecidableEq, Repr

/-- `mappings[0] if len(mappings)==1 else mappings` (ticdatfactory.py:486, pandatfactory.py:861). -/
def FK.pyMapping (k : FK) : FKMap :=
  match k.mapping with
  | [p] => .one p.1 p.2
  | l => .many l

/-- The namedtuple `ForeignKey` (utils.py:323), the keys of the report with verbosity "High". -/
structure HighKey where
  native : String
  foreign : String
  mapping : FKMap
  cardinality : String
deriving DecidableEq, Repr

/-- `ForeignKey(native, foreign, mappings, cardinality)` (ticdatfactory.py:495, pandatfactory.py:870). -/
def highKey (s : Schema) (k : FK) : HighKey := ⟨k.native, k.foreign, k.pyMapping, cardinality s k⟩

/-- `tuple(k[2])` (ticdatfactory.py:1786, pandatfactory.py:1439): of a bare `ForeignKeyMapping` the tuple of its two field names, of
a tuple of them the tuple of the pairs. -/
inductive LowMap where
  | fields (native foreign : String)
  | pairs (l : List (String × String))
deriving DecidableEq, Repr

/-- The keys of the report with verbosity "Low". -/
structure LowKey where
  native : String
  foreign : String
  mapping : LowMap
deriving DecidableEq, Repr

/-- `tuple(k[:2]) + (tuple(k[2]),)` (ticdatfactory.py:1786, pandatfactory.py:1439). -/
def lowKey (h : HighKey) : LowKey :=
  ⟨h.native, h.foreign, match h.mapping with
    | .one a b => .fields a b
    | .many l => .pairs l⟩

/-- A report in one of the two forms. -/
inductive FKReport (R : Type) where
  | high (d : PyDict HighKey R)
  | low (d : PyDict LowKey R)

/-- The last lines of both functions (ticdatfactory.py:1784-1787, pandatfactory.py:1434-1440): dictionaries made entry by entry. -/
def fkReport {R : Type} (s : Schema) (verbosity : String) (found : List (FK × R)) : FKReport R :=
  let high := PyDict.ofList (found.map (fun p => (highKey s p.1, p.2)))
  if verbosity = "Low" then .low (PyDict.ofList (high.map (fun p => (lowKey p.1, p.2)))) else .high high

/-- The checks of the arguments (ticdatfactory.py:1724-1726, pandatfactory.py:1432-1433). -/
def reportArgsOK (verbosity : String) (lim : Option Nat) : Bool :=
  decide (verbosity ∈ ["High", "Low"]) && decide (lim ≠ some 0)

/-- `TicDatFactory.find_foreign_key_failures` (ticdatfactory.py:1690-1787). -/
def findFKReport (s : Schema) (fks : List FK) (db : DB V) (verbosity : String) (lim : Option Nat) :
    Option (FKReport (FKFailures V)) :=
  if reportArgsOK verbosity lim then (findFK s fks db lim).map (fkReport s verbosity) else none

/-- The values of the pandas report (pandatfactory.py:1437). -/
inductive PanFound (V : Type) where
  | table (rows : List (PRow V))
  | flags (rows : List Bool)

/-- `getattr(pan_dat, native)[rows]` for a list of Booleans (pandatfactory.py:1437). -/
def keepFlagged {A : Type} : List Bool → List A → List A
  | true :: fl, r :: rs => r :: keepFlagged fl rs
  | false :: fl, _ :: rs => keepFlagged fl rs
  | _, _ => []

/-- `PanDatFactory.find_foreign_key_failures` (pandatfactory.py:1399-1440). -/
def panFindReport (s : Schema) (fks : List FK) (db : PanDB V) (verbosity : String) (asTable : Bool) (lim : Option Nat) :
    Option (FKReport (PanFound V)) :=
  if reportArgsOK verbosity lim then
    some (fkReport s verbosity ((panFindRows db lim fks 0).map (fun p =>
      (p.1, if asTable then .table (keepFlagged p.2 (db p.1.native)) else .flags p.2))))
  else none

end Ticdat
