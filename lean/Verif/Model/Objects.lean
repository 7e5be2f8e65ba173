import Verif.Model.Cell
/-!
# Python objects with identity: `deep_copy`, `deep_freeze` and what a factory shows of itself

Objects are trees; what can change has an identity.  Two places with the same identity are the same object.  Cyclic objects are left
out, and so are DataFrames.  A named tuple is a tuple.  The parts of a set and the keys of a dictionary come in iteration order.
-/
namespace Ticdat

mutual
/-- A Python object: a value that cannot change, a function, a factory (with its contents), or a container.  `dict i frozen kvs` is a
`FrozenDict` if `frozen`. -/
inductive PyVal where
  | atom (c : Cell)
  | func (i : Nat)
  | factory (i : Nat) (content : Nat)
  | tuple (xs : PyVals)
  | frozenset (xs : PyVals)
  | list (i : Nat) (xs : PyVals)
  | set (i : Nat) (xs : PyVals)
  | dict (i : Nat) (frozen : Bool) (kvs : PyPairs)
/-- The parts of a tuple, list or set. -/
inductive PyVals where
  | nil
  | cons (x : PyVal) (xs : PyVals)
/-- The entries of a dictionary. -/
inductive PyPairs where
  | nil
  | cons (k v : PyVal) (kvs : PyPairs)
end

mutual
/-- `deep_freeze` (utils.py:1014-1021).  The second component is the next free identity. -/
def deepFreeze : PyVal → Nat → PyVal × Nat
  | .atom c, n => (.atom c, n)
  | .func i, n => (.func i, n)
  | .factory i c, n => (.factory i c, n)
  | .tuple xs, n => (.tuple (deepFreezeAll xs n).1, (deepFreezeAll xs n).2)
  | .list _ xs, n => (.tuple (deepFreezeAll xs n).1, (deepFreezeAll xs n).2)
  | .frozenset xs, n => (.frozenset (deepFreezeAll xs n).1, (deepFreezeAll xs n).2)
  | .set _ xs, n => (.frozenset (deepFreezeAll xs n).1, (deepFreezeAll xs n).2)
  | .dict _ _ kvs, n => (.dict (deepFreezePairs kvs n).2 true (deepFreezePairs kvs n).1, (deepFreezePairs kvs n).2 + 1)
/-- `map(deep_freeze, x)` (utils.py:1020-1021). -/
def deepFreezeAll : PyVals → Nat → PyVals × Nat
  | .nil, n => (.nil, n)
  | .cons x xs, n => (.cons (deepFreeze x n).1 (deepFreezeAll xs (deepFreeze x n).2).1, (deepFreezeAll xs (deepFreeze x n).2).2)
/-- `{deep_freeze(k) : deep_freeze(v) for k,v in x.items()}` (utils.py:1018). -/
def deepFreezePairs : PyPairs → Nat → PyPairs × Nat
  | .nil, n => (.nil, n)
  | .cons k v kvs, n =>
    (.cons (deepFreeze k n).1 (deepFreeze v (deepFreeze k n).2).1 (deepFreezePairs kvs (deepFreeze v (deepFreeze k n).2).2).1,
      (deepFreezePairs kvs (deepFreeze v (deepFreeze k n).2).2).2)
end

mutual
/-- `deep_copy` (utils.py:1023-1048).  A datetime is no number, and other objects are "unexpected": `none` is the raised error.  The
clone of a factory has its contents (1044-1045, C35, C69). -/
def deepCopy : PyVal → Nat → Option (PyVal × Nat)
  | .atom (.dt _), _ => none
  | .atom (.other _), _ => none
  | .atom c, n => some (.atom c, n)
  | .func i, n => some (.func i, n)
  | .factory _ c, n => some (.factory n c, n + 1)
  | .tuple xs, n => (deepCopyAll xs n).map (fun r => (.tuple r.1, r.2))
  | .frozenset xs, n => (deepCopyAll xs n).map (fun r => (.frozenset r.1, r.2))
  | .set _ xs, n => (deepCopyAll xs n).map (fun r => (.set r.2 r.1, r.2 + 1))
  | .list _ xs, n => (deepCopyAll xs n).map (fun r => (.list r.2 r.1, r.2 + 1))
  | .dict _ _ kvs, n => (deepCopyPairs kvs n).map (fun r => (.dict r.2 false r.1, r.2 + 1))
/-- `deep_copy(y) for y in x` (utils.py:1033-1039). -/
def deepCopyAll : PyVals → Nat → Option (PyVals × Nat)
  | .nil, n => some (.nil, n)
  | .cons x xs, n => (deepCopy x n).bind (fun a => (deepCopyAll xs a.2).map (fun r => (.cons a.1 r.1, r.2)))
/-- `{deep_copy(k): deep_copy(v) for k, v in x.items()}` (utils.py:1043). -/
def deepCopyPairs : PyPairs → Nat → Option (PyPairs × Nat)
  | .nil, n => some (.nil, n)
  | .cons k v kvs, n => (deepCopy k n).bind (fun a => (deepCopy v a.2).bind (fun b =>
      (deepCopyPairs kvs b.2).map (fun r => (.cons a.1 b.1 r.1, r.2))))
end

/-- The containers a factory holds (ticdatfactory.py:675-687, 923, pandatfactory.py likewise). -/
structure FactoryObjects where
  pks : PyVal
  dfs : PyVal
  defaults : PyPairs
  types : PyPairs
  predicates : PyPairs
  tooltips : PyPairs
  params : PyPairs
  generators : PyVals
  /-- The identities of the dictionaries and of the list. -/
  defaultsId : Nat
  typesId : Nat
  predicatesId : Nat
  tooltipsId : Nat
  paramsId : Nat
  generatorsId : Nat

/-- `primary_key_fields` (ticdatfactory.py:63-65, pandatfactory.py:83-85): the dictionary of the factory itself. -/
def FactoryObjects.primaryKeyFields (f : FactoryObjects) : PyVal := f.pks

/-- `data_fields` (ticdatfactory.py:66-68, pandatfactory.py:86-88): the dictionary of the factory itself. -/
def FactoryObjects.dataFields (f : FactoryObjects) : PyVal := f.dfs

/-- `default_values` (ticdatfactory.py:160-162, pandatfactory.py:288-290). -/
def FactoryObjects.defaultValues (f : FactoryObjects) (n : Nat) : PyVal := (deepFreeze (.dict f.defaultsId false f.defaults) n).1

/-- `generator_tables` (ticdatfactory.py:157-159). -/
def FactoryObjects.generatorTables (f : FactoryObjects) (n : Nat) : PyVal := (deepFreeze (.list f.generatorsId f.generators) n).1

/-- `parameters` (ticdatfactory.py:163-165, pandatfactory.py:317-319): a `FrozenDict` with the same entries. -/
def FactoryObjects.parameters (f : FactoryObjects) (n : Nat) : PyVal := .dict n true f.params

/-- `tooltips` (ticdatfactory.py:170-172, pandatfactory.py:295-297). -/
def FactoryObjects.shownTooltips (f : FactoryObjects) (n : Nat) : PyVal := .dict n true f.tooltips

/-- The inner dictionaries of `data_types`: `FrozenDict({k :v for k,v in vd.items()})` (ticdatfactory.py:168-169). -/
def innerDicts : PyPairs → Nat → PyPairs
  | .nil, _ => .nil
  | .cons k (.dict _ _ kvs) rest, n => .cons k (.dict n true kvs) (innerDicts rest (n + 1))
  | .cons k v rest, n => .cons k v (innerDicts rest n)

/-- `data_types` (ticdatfactory.py:166-169, pandatfactory.py:291-294). -/
def FactoryObjects.dataTypes (f : FactoryObjects) (n : Nat) : PyVal := .dict n true (innerDicts f.types (n + 1))

/-- `dict.get` for a key that is a string. -/
def PyPairs.entry (name : String) : PyPairs → Option PyVal
  | .nil => none
  | .cons (.atom (.str s)) v rest => if s = name then some v else PyPairs.entry name rest
  | .cons _ _ rest => PyPairs.entry name rest

/-- `get_row_predicates` (ticdatfactory.py:322-332, pandatfactory.py:706-716) after the check that the table exists: a new dictionary
with the entries of the table. -/
def FactoryObjects.rowPredicates (f : FactoryObjects) (t : String) (n : Nat) : PyVal :=
  match PyPairs.entry t f.predicates with
  | some (.dict _ _ kvs) => .dict n false kvs
  | _ => .dict n false .nil

end Ticdat
