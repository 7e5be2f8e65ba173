import Verif.Model.Dict
/-!
# Schemas, data objects, and cells

The values of cells are an arbitrary type `V` with decidable equality.  It stands for Python values up to
`==` (what `dict` and `set` membership see: `1 == 1.0 == True` is one value).  NaN is left out (`nan != nan`).
-/
namespace Ticdat

/-- One table of a schema: `primary_key_fields[t]` and `data_fields[t]`
(ticdatfactory.py:635-702, `TicDatFactory.__init__`). -/
structure TSchema where
  pks : List String
  dfs : List String
deriving DecidableEq, Repr

/-- The tables of a factory in declaration order (ticdatfactory.py:673-702).  Generic (`'*'`) tables are
not modelled here. -/
abbrev Schema := PyDict String TSchema

/-- `primary_key_fields.get(t, ())`. -/
def Schema.pks (s : Schema) (t : String) : List String :=
  match s.get? t with
  | some ts => ts.pks
  | none => []

/-- `data_fields.get(t, ())`. -/
def Schema.dfs (s : Schema) (t : String) : List String :=
  match s.get? t with
  | some ts => ts.dfs
  | none => []

/-- `all_fields(tdf, t)` (utils.py:261-263), `_allFields` (ticdatfactory.py:1114-1117). -/
def Schema.allFields (s : Schema) (t : String) : List String := s.pks t ++ s.dfs t

/-- How a row of a table is addressed: the scalar primary key of a one-field key, the tuple of a
multi-field key, or the list index of a row in a table with no primary key
(ticdatfactory.py:703-732 `TicDatDict`/`TicDatDataList`, 1759-1761 `items()`/`enumerate`). -/
inductive PKey (V : Type) where
  | one (v : V)
  | many (vs : List V)
  | idx (i : Nat)
deriving DecidableEq, Repr

/-- The contents of one table: a `TicDatDict` from key to data row for tables with a primary key, or a
`TicDatDataList` of data rows otherwise (ticdatfactory.py:703-732).  A data row is a `TicDatDataRow`,
its `_data` list is aligned with `data_fields` (utils.py:1062-1107). -/
inductive TableData (V : Type) where
  | dict (rows : PyDict (PKey V) (List V))
  | list (rows : List (List V))
deriving Repr

/-- `tbl.items() if dictish(tbl) else enumerate(tbl)` (ticdatfactory.py:1745, 1759-1761). -/
def TableData.items {V : Type} : TableData V → List (PKey V × List V)
  | .dict rows => rows
  | .list rows => rows.zipIdx.map (fun p => (PKey.idx p.2, p.1))

/-- `len(tbl)`. -/
def TableData.size {V : Type} : TableData V → Nat
  | .dict rows => rows.length
  | .list rows => rows.length

/-- A data object: `getattr(tic_dat, t)` for each table `t`. -/
abbrev DB (V : Type) := String → TableData V

/-- A foreign key as produced by the `foreign_keys` property (ticdatfactory.py:480-497, pandatfactory.py:855-871); `mapping` lists the
`(native_field, foreign_field)` pairs.  A one-pair mapping is stored by the code as a bare
`ForeignKeyMapping` and behaves as the one-element list (utils.py:323-333). -/
structure FK where
  native : String
  foreign : String
  mapping : List (String × String)
deriving DecidableEq, Repr

/-- `ForeignKey.foreigntonativemapping` (utils.py:327-331): `{foreign_field: native_field}`; for a repeated
foreign field the last pair wins. -/
def FK.foreignToNative (k : FK) : PyDict String String :=
  PyDict.ofList (k.mapping.map (fun p => (p.2, p.1)))

end Ticdat
