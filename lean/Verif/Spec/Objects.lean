import Verif.Model.Objects
/-!
# Specification of copies, frozen objects and separation
-/
namespace Ticdat.Spec

mutual
/-- The identities of everything in an object that can change. -/
def ids : PyVal → List Nat
  | .atom _ => []
  | .func _ => []
  | .factory i _ => [i]
  | .tuple xs => idsAll xs
  | .frozenset xs => idsAll xs
  | .list i xs => i :: idsAll xs
  | .set i xs => i :: idsAll xs
  | .dict i _ kvs => i :: idsPairs kvs
def idsAll : PyVals → List Nat
  | .nil => []
  | .cons x xs => ids x ++ idsAll xs
def idsPairs : PyPairs → List Nat
  | .nil => []
  | .cons k v kvs => ids k ++ (ids v ++ idsPairs kvs)
end

mutual
/-- The object after the object with identity `i` has become `new`. -/
def changed (i : Nat) (new : PyVal) : PyVal → PyVal
  | .atom c => .atom c
  | .func j => .func j
  | .factory j c => if j = i then new else .factory j c
  | .tuple xs => .tuple (changedAll i new xs)
  | .frozenset xs => .frozenset (changedAll i new xs)
  | .list j xs => if j = i then new else .list j (changedAll i new xs)
  | .set j xs => if j = i then new else .set j (changedAll i new xs)
  | .dict j fr kvs => if j = i then new else .dict j fr (changedPairs i new kvs)
def changedAll (i : Nat) (new : PyVal) : PyVals → PyVals
  | .nil => .nil
  | .cons x xs => .cons (changed i new x) (changedAll i new xs)
def changedPairs (i : Nat) (new : PyVal) : PyPairs → PyPairs
  | .nil => .nil
  | .cons k v kvs => .cons (changed i new k) (changed i new v) (changedPairs i new kvs)
end

/-- Whatever happens to one object (or any part of it), the other one stays as it is. -/
def Separate (x y : PyVal) : Prop :=
  (∀ i ∈ ids x, ∀ new, changed i new y = y) ∧ ∀ i ∈ ids y, ∀ new, changed i new x = x

mutual
/-- `y` has the contents of `x`, container for container (a `FrozenDict` may stand for a dict and the other way round): `tuples`
says whether tuples stand for lists and frozensets for sets. -/
inductive SameContent (tuples : Bool) : PyVal → PyVal → Prop
  | atom (c) : SameContent tuples (.atom c) (.atom c)
  | func (i) : SameContent tuples (.func i) (.func i)
  | factory (i j c) : SameContent tuples (.factory i c) (.factory j c)
  | tuple {xs ys} : SameContents tuples xs ys → SameContent tuples (.tuple xs) (.tuple ys)
  | frozenset {xs ys} : SameContents tuples xs ys → SameContent tuples (.frozenset xs) (.frozenset ys)
  | list (i j) {xs ys} : tuples = false → SameContents tuples xs ys → SameContent tuples (.list i xs) (.list j ys)
  | listTuple (i) {xs ys} : tuples = true → SameContents tuples xs ys → SameContent tuples (.list i xs) (.tuple ys)
  | set (i j) {xs ys} : tuples = false → SameContents tuples xs ys → SameContent tuples (.set i xs) (.set j ys)
  | setFrozen (i) {xs ys} : tuples = true → SameContents tuples xs ys → SameContent tuples (.set i xs) (.frozenset ys)
  | dict (i j fr fr') {xs ys} : SameEntries tuples xs ys → SameContent tuples (.dict i fr xs) (.dict j fr' ys)
inductive SameContents (tuples : Bool) : PyVals → PyVals → Prop
  | nil : SameContents tuples .nil .nil
  | cons {x y xs ys} : SameContent tuples x y → SameContents tuples xs ys → SameContents tuples (.cons x xs) (.cons y ys)
inductive SameEntries (tuples : Bool) : PyPairs → PyPairs → Prop
  | nil : SameEntries tuples .nil .nil
  | cons {k l v w xs ys} : SameContent tuples k l → SameContent tuples v w → SameEntries tuples xs ys →
      SameEntries tuples (.cons k v xs) (.cons l w ys)
end

mutual
/-- Every part of the object, itself included, meets the condition. -/
def AllParts (p : PyVal → Prop) : PyVal → Prop
  | .tuple xs => p (.tuple xs) ∧ AllPartsAll p xs
  | .frozenset xs => p (.frozenset xs) ∧ AllPartsAll p xs
  | .list i xs => p (.list i xs) ∧ AllPartsAll p xs
  | .set i xs => p (.set i xs) ∧ AllPartsAll p xs
  | .dict i fr kvs => p (.dict i fr kvs) ∧ AllPartsPairs p kvs
  | .atom c => p (.atom c)
  | .func i => p (.func i)
  | .factory i c => p (.factory i c)
def AllPartsAll (p : PyVal → Prop) : PyVals → Prop
  | .nil => True
  | .cons x xs => AllParts p x ∧ AllPartsAll p xs
def AllPartsPairs (p : PyVal → Prop) : PyPairs → Prop
  | .nil => True
  | .cons k v kvs => AllParts p k ∧ AllParts p v ∧ AllPartsPairs p kvs
end

/-- Neither a list nor a set nor an ordinary dictionary. -/
def NotMutable : PyVal → Prop
  | .list _ _ => False
  | .set _ _ => False
  | .dict _ fr _ => fr = true
  | _ => True

/-- Not a `FrozenDict`. -/
def NotFrozenDict : PyVal → Prop
  | .dict _ fr _ => fr = false
  | _ => True

/-- Not a factory. -/
def NotFactory : PyVal → Prop
  | .factory _ _ => False
  | _ => True

/-- An object `deep_copy` knows: neither a datetime nor an object of another class. -/
def Known : PyVal → Prop
  | .atom (.dt _) => False
  | .atom (.other _) => False
  | _ => True

/-- Every value is a dictionary, whose keys and values cannot change. -/
def DictsOfFixed : PyPairs → Prop
  | .nil => True
  | .cons k (.dict _ _ kvs) rest => ids k = [] ∧ idsPairs kvs = [] ∧ DictsOfFixed rest
  | _ => False

/-- Every value is a dictionary (of any class) whose keys and values have nothing mutable in them. -/
def DictsOfFrozen : PyPairs → Prop
  | .nil => True
  | .cons k (.dict _ _ kvs) rest => AllParts NotMutable k ∧ AllPartsPairs NotMutable kvs ∧ DictsOfFrozen rest
  | _ => False

/-- The dictionary maps the string to the value. -/
inductive Maps (t : String) (v : PyVal) : PyPairs → Prop
  | here (rest : PyPairs) : Maps t v (.cons (.atom (.str t)) v rest)
  | there {k w : PyVal} {rest : PyPairs} (hk : k ≠ .atom (.str t)) (h : Maps t v rest) : Maps t v (.cons k w rest)

/-- Everything a factory holds. -/
def factoryState (f : FactoryObjects) : PyVal :=
  .tuple (.cons f.pks (.cons f.dfs (.cons (.dict f.defaultsId false f.defaults) (.cons (.dict f.typesId false f.types)
    (.cons (.dict f.predicatesId false f.predicates) (.cons (.dict f.tooltipsId false f.tooltips)
      (.cons (.dict f.paramsId false f.params) (.cons (.list f.generatorsId f.generators) .nil))))))))

/-- The entries are of the kinds the setters make: default values are no factories, parameters have default values that cannot
change, tooltips are strings, data types and row predicates are dictionaries of named tuples. -/
structure FactoryFixed (f : FactoryObjects) : Prop where
  defaults : AllPartsPairs NotFactory f.defaults
  generators : AllPartsAll NotFactory f.generators
  params : idsPairs f.params = []
  tooltips : idsPairs f.tooltips = []
  types : DictsOfFixed f.types
  predicates : DictsOfFixed f.predicates

end Ticdat.Spec
