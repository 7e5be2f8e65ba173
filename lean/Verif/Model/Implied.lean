import Verif.Model.Schema
/-!
# `add_implied_foreign_keys` and the cardinality of foreign keys (TicDatFactory)
-/
namespace Ticdat

/-- The key derived from `k1` (native → bridge) and `k2` (bridge → foreign) (ticdatfactory.py:530-535); `k2` is one of
`curFKs[bridgetable]`. -/
def derivedFK (k1 k2 : FK) : FK where
  native := k1.native
  foreign := k2.foreign
  mapping := k2.foreignToNative.filterMap (fun p => (k1.foreignToNative.get? p.2).map (fun nf => (nf, p.1)))

/-- `_simple_fk` (ticdatfactory.py:583-589): the mapped foreign fields are, as a set, the primary key. -/
def simpleFK (s : Schema) (k : FK) : Bool :=
  decide ((∀ f ∈ s.pks k.foreign, f ∈ k.mapping.map Prod.snd) ∧ (∀ f ∈ k.mapping.map Prod.snd, f ∈ s.pks k.foreign))

/-- The keys `findderivedforeignkey` may add next (ticdatfactory.py:525-538).  The code adds the first it finds, in an
order fixed by Python sets and dictionaries. -/
def impliedCandidates (s : Schema) (fks : List FK) : List FK :=
  (fks.flatMap (fun k1 => (fks.filter (fun k2 => k2.native = k1.foreign)).map (derivedFK k1))).filter
    (fun d => decide (d ∉ fks) && simpleFK s d)

/-- One successful call of `findderivedforeignkey`, whatever the iteration order. -/
def ImpliedStep (s : Schema) (fks fks' : List FK) : Prop := ∃ d ∈ impliedCandidates s fks, fks' = d :: fks

/-- `while findderivedforeignkey(): pass` (ticdatfactory.py:539-540): any number of steps, until none is possible. -/
inductive ImpliedRun (s : Schema) : Nat → List FK → List FK → Prop
  | stop {fks : List FK} : impliedCandidates s fks = [] → ImpliedRun s 0 fks fks
  | step {n : Nat} {a b c : List FK} : ImpliedStep s a b → ImpliedRun s n b c → ImpliedRun s (n + 1) a c

/-- The loop with a fixed iteration order, and fuel for the `while`. -/
def addImplied (s : Schema) : Nat → List FK → Option (List FK)
  | 0, _ => none
  | fuel + 1, fks =>
    match impliedCandidates s fks with
    | [] => some fks
    | d :: _ => addImplied s fuel (d :: fks)

/-- `half_card` (ticdatfactory.py:487-492). -/
def halfCard (s : Schema) (t : String) (fields : List String) : String :=
  if s.pks t ≠ [] ∧ ∀ f ∈ s.pks t, f ∈ fields then "one" else "many"

/-- The `cardinality` of a foreign key (ticdatfactory.py:493-494). -/
def cardinality (s : Schema) (k : FK) : String :=
  halfCard s k.native (k.mapping.map Prod.fst) ++ "-to-" ++ halfCard s k.foreign (k.mapping.map Prod.snd)

end Ticdat
