import Verif.Model.Factory
/-!
# `clone`, `clone_add_a_table`, `clone_add_a_column`, `clone_remove_a_column`, `clone_rename_a_column`

For `TicDatFactory` and clones that are again `TicDatFactory` objects, without `convert_dat` (see C41 for that).  `none`
stands for a raised exception.
-/
namespace Ticdat
variable {V K : Type}

/-- `rtn[k]` for `default_values`, `data_types` and `tooltips`: the entries of the kept tables, without the removed fields
(utils.py:203-207). -/
def keepEntries {A : Type} (tables : List String) (removed : List (String × String)) (d : PyDict String (PyDict String A)) :
    PyDict String (PyDict String A) :=
  (d.filter (fun p => decide (p.1 ∈ tables))).map (fun p => (p.1, p.2.filter (fun q => decide ((p.1, q.1) ∉ removed))))

/-- `good_fk` (utils.py:209-217). -/
def keepFK (tables : List String) (removed : List (String × String)) (k : FK) : Bool :=
  decide (k.native ∈ tables) && decide (k.foreign ∈ tables) &&
    k.mapping.all (fun p => decide ((k.native, p.1) ∉ removed) && decide ((k.foreign, p.2) ∉ removed))

/-- The fields of the table `t` without the removed ones (utils.py:197-202).  Generic tables do not get this far. -/
def Decl.keepFields (removed : List (String × String)) (t : String) : Decl → Decl
  | .generic => .generic
  | .fields pks dfs => .fields (pks.filter (fun fld => decide ((t, fld) ∉ removed)))
      (dfs.filter (fun fld => decide ((t, fld) ∉ removed)))

/-- `clone_a_anchillary_info_schema` (utils.py:168-229) with tables and removed fields given.  An empty collection of tables
counts as all tables (182).  Unpacking the `'*'` of a generic table raises (191). -/
def restrictSchema (fs : FullSchema) (tables : List String) (removed : List (String × String)) : Option FullSchema :=
  let keep := if tables = [] then PyDict.keys fs.tables else tables
  if fs.tables = [] then none
  else if (PyDict.keys fs.tables).any (fun t => decide (PyDict.get? fs.tables t = some .generic)) then none
  else if keep.all (fun t => decide (t ∈ PyDict.keys fs.tables)) &&
      removed.all (fun r => fs.tables.any (fun p => decide (p.1 = r.1) && decide (r.2 ∈ p.2.pks ++ p.2.dfs))) then
    some { fs with
      tables := (fs.tables.filter (fun p => decide (p.1 ∈ keep))).map (fun p => (p.1, p.2.keepFields removed p.1))
      fks := fs.fks.filter (keepFK keep removed)
      defaults := keepEntries keep removed fs.defaults
      types := keepEntries keep removed fs.types
      params := fs.params.map (fun ps => if "parameters" ∈ keep then ps else [])
      tooltips := fs.tooltips.map (keepEntries keep removed) }
  else none

/-- `clone(table_restrictions=restr, clone_factory=make)` (ticdatfactory.py:1352-1402). -/
def Factory.cloneWith (f : Factory V K) (restr : Option (List String)) (make : FullSchema → Option (Factory V K)) :
    Option (Factory V K) := do
  let fs ← restr.elim (some f.schema) (fun ts => restrictSchema f.schema ts [])
  let g ← make fs
  let g ← g.setGenerators f.generators
  let g ← ((PyDict.flat f.preds).filter (fun p => restr.elim true (fun ts => decide (p.1 ∈ ts)))).foldlM
    (fun g p => g.addRowPred ⟨p.1, some p.2.1, some p.2.2⟩) g
  some { g with links := g.links || f.links }

/-- `clone(table_restrictions=restr)`. -/
def Factory.clone (env : FactoryEnv) (f : Factory V K) (restr : Option (List String)) : Option (Factory V K) :=
  f.cloneWith restr (createFromFullSchema env)

/-- `clone_remove_a_column` (utils.py:113-121). -/
def Factory.cloneRemove (env : FactoryEnv) (f : Factory V K) (t fld : String) : Option (Factory V K) :=
  if f.hasField t fld then
    f.cloneWith none (fun fs => (restrictSchema fs (PyDict.keys f.tables) [(t, fld)]).bind (createFromFullSchema env))
  else none

/-- `field_type`. -/
inductive FieldKind where
  | primaryKey
  | data
deriving DecidableEq, Repr

/-- `list.insert(i, x)` for `0 <= i <= len(list)`. -/
def insertAt (l : List String) (i : Nat) (x : String) : List String := l.take i ++ x :: l.drop i

/-- `tables_fields[table][..].insert(field_position, field)` (utils.py:109). -/
def Decl.insertField (kind : FieldKind) (i : Nat) (fld : String) : Decl → Decl
  | .generic => .generic
  | .fields pks dfs =>
    match kind with
    | .primaryKey => .fields (insertAt pks i fld) dfs
    | .data => .fields pks (insertAt dfs i fld)

/-- `primary_key_fields[table]` or `data_fields[table]`; `KeyError` for a generic table (utils.py:101). -/
def Factory.kindFields (f : Factory V K) (t : String) (kind : FieldKind) : Option (List String) :=
  match PyDict.get? f.tables t with
  | some (.fields pks dfs) => some (match kind with | .primaryKey => pks | .data => dfs)
  | _ => none

/-- `clone_add_a_column` (utils.py:97-111); `pos = none` is `"append"`. -/
def Factory.cloneAdd (env : FactoryEnv) (f : Factory V K) (t fld : String) (kind : FieldKind) (pos : Option Int) :
    Option (Factory V K) :=
  (f.kindFields t kind).bind (fun cur =>
    if fld ∈ cur then none
    else
      let i : Int := pos.getD cur.length
      if 0 ≤ i ∧ i ≤ cur.length then
        f.cloneWith none (fun fs => (restrictSchema fs (PyDict.keys f.tables) []).bind (fun fs =>
          createFromFullSchema env { fs with
            tables := fs.tables.map (fun p => if p.1 = t then (p.1, p.2.insertField kind i.toNat fld) else p) }))
      else none)

/-- `clone_add_a_table` (utils.py:123-134). -/
def Factory.cloneAddTable (env : FactoryEnv) (f : Factory V K) (t : String) (pks dfs : List String) : Option (Factory V K) :=
  if PyDict.has f.tables t || decide (pks ++ dfs = []) then none
  else
    f.cloneWith none (fun fs => (restrictSchema fs (PyDict.keys f.tables) []).bind (fun fs =>
      createFromFullSchema env { fs with tables := PyDict.set fs.tables t (.fields pks dfs) }))

/-- `field_renaming` (utils.py:156). -/
def renameField (table field new : String) (t fld : String) : String :=
  if t = table ∧ fld = field then new else fld

/-- `needs_renaming(fk.mapping)` (utils.py:151-154). -/
def FK.mentions (k : FK) (table field : String) : Bool :=
  k.mapping.any (fun p => (decide (k.native = table) && decide (p.1 = field)) ||
    (decide (k.foreign = table) && decide (p.2 = field)))

/-- The place of the field: its kind and its index (utils.py:140-143). -/
def Factory.placeOf (f : Factory V K) (t fld : String) : Option (FieldKind × Nat) :=
  match PyDict.get? f.tables t with
  | some (.fields pks dfs) =>
    if fld ∈ pks then some (.primaryKey, pks.idxOf fld) else if fld ∈ dfs then some (.data, dfs.idxOf fld) else none
  | _ => none

/-- utils.py:147-148. -/
def Factory.copyType (g : Factory V K) (t new : String) : Option TypeDict → Option (Factory V K)
  | some td => g.setDataType t new td.toArgs
  | none => some g

/-- utils.py:149-150. -/
def Factory.copyDefault (g : Factory V K) (t new : String) : Option Cell → Option (Factory V K)
  | some c => g.setDefault t new c
  | none => some g

/-- utils.py:164-165. -/
def Factory.copyTip (g : Factory V K) (t new : String) : Option String → Option (Factory V K)
  | some tip => g.setTooltip t new tip
  | none => some g

/-- `clone_rename_a_column` (utils.py:136-166).  The tooltip of a field named `""` would be that of the table. -/
def Factory.cloneRename (env : FactoryEnv) (f : Factory V K) (t fld new : String) : Option (Factory V K) := do
  let place ← f.placeOf t fld
  if f.hasField t new then none
  else
    let g ← f.cloneRemove env t fld
    let g ← g.cloneAdd env t new place.1 (some place.2)
    let g ← g.copyType t new (PyDict.get2 f.types t fld)
    let g ← g.copyDefault t new (PyDict.get2 f.defaults t fld)
    let g ← (f.fks.filter (fun k => k.mentions t fld)).foldlM (fun g k => g.addFK k.native k.foreign
      (k.mapping.map (fun p => (renameField t fld new k.native p.1, renameField t fld new k.foreign p.2)))) g
    g.copyTip t new (if fld = "" then none else PyDict.get? f.tooltips (t, fld))

end Ticdat
