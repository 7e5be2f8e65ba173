import Verif.Model.Clone
/-!
# The state of a `PanDatFactory`, and clones from one kind of factory to the other

A `PanDatFactory` holds the same information as a `TicDatFactory`, without generator tables and foreign key links; it is a
`Factory` whose `generators` and `links` are never set.  The checks of `PanDatFactory(**init_fields)`
(pandatfactory.py:934-962) are those of `newFactory`.  Its `schema` and `create_from_full_schema` (pandatfactory.py:89-179)
have the text of the methods of `TicDatFactory` and use only setters that have the text of those of `TicDatFactory`, so
`Factory.schema` and `createFromFullSchema` model both.
-/
namespace Ticdat
variable {V K : Type}

/-- `for f, dv in v.items(): self.set_default_value(k, f, dv)` (pandatfactory.py:834-835): the fields before a bad one are
changed, and the flag says whether it raised. -/
def Factory.panDefaultsRow (t : String) : List (String × Cell) → Factory V K → Factory V K × Bool
  | [], f => (f, false)
  | (fld, c) :: rest, f =>
    match f.setDefault t fld c with
    | some g => Factory.panDefaultsRow t rest g
    | none => (f, true)

/-- The verifications of `set_default_values` before the values of a table are set (pandatfactory.py:830-833). -/
def Factory.panGoodDefaults (f : Factory V K) (t : String) (v : PyDict String Cell) : Bool :=
  match PyDict.get? f.tables t with
  | some (.fields pks dfs) => (PyDict.keys v).all (fun fld => decide (fld ∈ dfs ++ pks))
  | _ => false

/-- The loop of `set_default_values` (pandatfactory.py:829-835). -/
def Factory.panDefaultsLoop : List (String × PyDict String Cell) → Factory V K → Factory V K × Bool
  | [], f => (f, false)
  | (t, v) :: rest, f =>
    if f.panGoodDefaults t v then
      match Factory.panDefaultsRow t v f with
      | (g, false) => Factory.panDefaultsLoop rest g
      | (g, true) => (g, true)
    else (f, true)

/-- `set_default_values` (pandatfactory.py:812-835). -/
def Factory.panSetDefaults (f : Factory V K) (l : PyDict String (PyDict String Cell)) : Factory V K × Bool :=
  if f.used then (f, true) else Factory.panDefaultsLoop l f

/-- `add_data_row_predicate` (pandatfactory.py:642-705), called with a predicate or `None`: the table may be generic. -/
def Factory.panAddRowPred (f : Factory V K) (c : PredCall V K) : Option (Factory V K) :=
  if f.used then none
  else if PyDict.has f.tables c.table then some { f with preds := addPred f.preds c } else none

/-- The effect of a call on a `PanDatFactory`, and whether it raised.  `set_data_type` (pandatfactory.py:573-621),
`clear_data_type` (623-640), `add_parameter` (718-773), `remove_parameter` (775-784), `set_default_value` (786-810),
`clear_foreign_keys` (837-853), `add_foreign_key` (875-915), `set_tooltip` (299-315) and the setters of flags (326-409) have
the text of the methods of `TicDatFactory`.  There are no methods for generator tables, implied foreign keys and foreign
key links: calling them raises `AttributeError`.  `use` is the creation of a `PanDat` (916-917, 987), which counts as a use
even when it raises afterwards. -/
def Factory.applyPan (env : FactoryEnv) (f : Factory V K) : FOp V K → Factory V K × Bool
  | .setDataType t fld a => f.tryOp (f.setDataType t fld a)
  | .clearDataType t fld => f.tryOp (f.clearDataType t fld)
  | .setDefault t fld c => f.tryOp (f.setDefault t fld c)
  | .setDefaults l => f.panSetDefaults l
  | .addFK n g m => f.tryOp (f.addFK n g m)
  | .clearFKs n => f.tryOp (f.clearFKs n)
  | .addImplied => (f, true)
  | .addParam n d e => f.tryOp (f.addParam env n d e)
  | .removeParam n => f.tryOp (f.removeParam n)
  | .setGenerators _ => (f, true)
  | .setTooltip t fld tip => f.tryOp (f.setTooltip t fld tip)
  | .addRowPred c => f.tryOp (f.panAddRowPred c)
  | .setFlag c => f.tryOp ((setInfFlag c).map (fun x => { f with flag := x }))
  | .setTrailing s => f.tryOp ((parseTrailing s).map (fun x => { f with prune := x }))
  | .setDups s => f.tryOp ((parseDups s).map (fun x => { f with dups := x }))
  | .setAutomunge b => ({ f with automunge := b }, false)
  | .enableLinks => (f, true)
  | .use => ({ f with used := true }, false)

/-- A sequence of calls on a `PanDatFactory`, raising or not. -/
def Factory.applyPanAll (env : FactoryEnv) (f : Factory V K) (ops : List (FOp V K)) : Factory V K :=
  ops.foldl (fun f op => (f.applyPan env op).1) f

/-- The two classes. -/
inductive FKind where
  | tic
  | pan
deriving DecidableEq, Repr

/-- `rtn.add_data_row_predicate(...)` for a result of either class. -/
def Factory.addRowPredAs : FKind → Factory V K → PredCall V K → Option (Factory V K)
  | .tic, f, c => f.addRowPred c
  | .pan, f, c => f.panAddRowPred c

/-- `rtn.enable_foreign_key_links() if self._foreign_key_links_enabled else None` (ticdatfactory.py:1393), which only the
`clone` of `TicDatFactory` does; a `PanDatFactory` has no such method. -/
def Factory.cloneLinks (src dst : FKind) (wanted : Bool) (g : Factory V K) : Option (Factory V K) :=
  match src, dst, wanted with
  | .tic, .tic, true => some { g with links := true }
  | .tic, .pan, true => none
  | _, _, _ => some g

/-- `if hasattr(rtn, "set_generator_tables"): rtn.set_generator_tables(self.generator_tables)`
(ticdatfactory.py:1384-1385), which only the `clone` of `TicDatFactory` does. -/
def Factory.cloneGenerators (src dst : FKind) (gens : List String) (g : Factory V K) : Option (Factory V K) :=
  match src, dst with
  | .tic, .tic => g.setGenerators gens
  | _, _ => some g

/-- `clone(table_restrictions=restr, clone_factory=make)` of either class (ticdatfactory.py:1352-1402,
pandatfactory.py:180-228); `dropMakers` is `no_copy_predicate_kwargs_maker`.  Not modelled: `_convert_dat` (see C41). -/
def Factory.cloneAs (src dst : FKind) (f : Factory V K) (restr : Option (List String)) (dropMakers : Bool)
    (make : FullSchema → Option (Factory V K)) : Option (Factory V K) := do
  let fs ← restr.elim (some f.schema) (fun ts => restrictSchema f.schema ts [])
  let g ← make fs
  let g ← Factory.cloneGenerators src dst f.generators g
  let g ← ((PyDict.flat f.preds).filter (fun p => restr.elim true (fun ts => decide (p.1 ∈ ts)) &&
      !(dropMakers && p.2.2.maker.isSome))).foldlM
    (fun g p => Factory.addRowPredAs dst g ⟨p.1, some p.2.1, some p.2.2⟩) g
  Factory.cloneLinks src dst f.links g

/-- `clone(table_restrictions=restr, clone_factory=dst, convert_dat=...)`; `convert` says whether there is a `convert_dat`. -/
def Factory.cloneTo (env : FactoryEnv) (src dst : FKind) (f : Factory V K) (restr : Option (List String)) (convert : Bool) :
    Option (Factory V K) :=
  f.cloneAs src dst restr (decide (src ≠ dst) && !convert) (createFromFullSchema env)

/-- `PanDatFactory.clone_remove_a_column` (pandatfactory.py:262-272, utils.py:113-121). -/
def Factory.panCloneRemove (env : FactoryEnv) (f : Factory V K) (t fld : String) : Option (Factory V K) :=
  if f.hasField t fld then
    f.cloneAs .pan .pan none false
      (fun fs => (restrictSchema fs (PyDict.keys f.tables) [(t, fld)]).bind (createFromFullSchema env))
  else none

/-- `PanDatFactory.clone_add_a_column` (pandatfactory.py:243-261, utils.py:97-111); `pos = none` is `"append"`. -/
def Factory.panCloneAdd (env : FactoryEnv) (f : Factory V K) (t fld : String) (kind : FieldKind) (pos : Option Int) :
    Option (Factory V K) :=
  (f.kindFields t kind).bind (fun cur =>
    if fld ∈ cur then none
    else
      let i : Int := pos.getD cur.length
      if 0 ≤ i ∧ i ≤ cur.length then
        f.cloneAs .pan .pan none false (fun fs => (restrictSchema fs (PyDict.keys f.tables) []).bind (fun fs =>
          createFromFullSchema env { fs with
            tables := fs.tables.map (fun p => if p.1 = t then (p.1, p.2.insertField kind i.toNat fld) else p) }))
      else none)

/-- `PanDatFactory.clone_add_a_table` (pandatfactory.py:229-242, utils.py:123-134). -/
def Factory.panCloneAddTable (env : FactoryEnv) (f : Factory V K) (t : String) (pks dfs : List String) :
    Option (Factory V K) :=
  if PyDict.has f.tables t || decide (pks ++ dfs = []) then none
  else
    f.cloneAs .pan .pan none false (fun fs => (restrictSchema fs (PyDict.keys f.tables) []).bind (fun fs =>
      createFromFullSchema env { fs with tables := PyDict.set fs.tables t (.fields pks dfs) }))

/-- `PanDatFactory.clone_rename_a_column` (pandatfactory.py:273-287, utils.py:136-166). -/
def Factory.panCloneRename (env : FactoryEnv) (f : Factory V K) (t fld new : String) : Option (Factory V K) := do
  let place ← f.placeOf t fld
  if f.hasField t new then none
  else
    let g ← f.panCloneRemove env t fld
    let g ← g.panCloneAdd env t new place.1 (some place.2)
    let g ← g.copyType t new (PyDict.get2 f.types t fld)
    let g ← g.copyDefault t new (PyDict.get2 f.defaults t fld)
    let g ← (f.fks.filter (fun k => k.mentions t fld)).foldlM (fun g k => g.addFK k.native k.foreign
      (k.mapping.map (fun p => (renameField t fld new k.native p.1, renameField t fld new k.foreign p.2)))) g
    g.copyTip t new (if fld = "" then none else PyDict.get? f.tooltips (t, fld))

end Ticdat
