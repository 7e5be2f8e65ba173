/-!
# Python dictionaries and sets as insertion-ordered association lists

CPython's `dict` keeps insertion order; assigning to an existing key keeps its position and replaces the
value; deleting and re-inserting moves it to the end.  ticdat relies on this everywhere.  These are not
functions of ticdat, they are the part of Python's semantics that the model takes as given.
Keys are taken up to Python `==` (the type `K` stands for the classes of hashable values under `==`).
-/
namespace Ticdat

/-- A Python `dict`: entries in insertion order. -/
abbrev PyDict (K V : Type) := List (K × V)

namespace PyDict
variable {K V : Type} [DecidableEq K]

/-- `d.get(k)`, with `none` for a missing key. -/
def get? : PyDict K V → K → Option V
  | [], _ => none
  | (k', v) :: rest, k => if k' = k then some v else get? rest k

/-- `k in d`. -/
def has (d : PyDict K V) (k : K) : Bool := (get? d k).isSome

/-- `d[k] = v`. -/
def set : PyDict K V → K → V → PyDict K V
  | [], k, v => [(k, v)]
  | (k', v') :: rest, k, v => if k' = k then (k', v) :: rest else (k', v') :: set rest k v

/-- `del d[k]` for a present key (no effect otherwise; callers model the `KeyError`). -/
def erase : PyDict K V → K → PyDict K V
  | [], _ => []
  | (k', v') :: rest, k => if k' = k then rest else (k', v') :: erase rest k

/-- `list(d)`. -/
def keys (d : PyDict K V) : List K := List.map Prod.fst d

/-- `{k: v for k, v in l}`. -/
def ofList (l : List (K × V)) : PyDict K V := l.foldl (fun d p => set d p.1 p.2) []

end PyDict

/-- `s.add(x)` on a Python set, kept as a duplicate-free list. -/
def setAdd {A : Type} [DecidableEq A] (s : List A) (x : A) : List A := if x ∈ s then s else s ++ [x]

end Ticdat
