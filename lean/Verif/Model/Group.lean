import Verif.Model.FindFK
/-!
# The shared shape of the failure finders: a scan with an early exit, and `defaultdict(set)`
-/
namespace Ticdat

/-- Nested loops with one early `return` from the innermost body, as in `populate_rtn` of `find_data_type_failures`
(ticdatfactory.py:1882-1907) and of `find_data_row_failures` (ticdatfactory.py:2023-2093): the checks in the order they
are made.  A check raises (`none`), passes (`some none`) or yields a failure.  `acc` is in reverse order of discovery;
the scan stops when the counter reaches the limit. -/
def scanChecks {E : Type} (lim : Option Nat) : List (Option (Option E)) → List E → Option (List E)
  | [], acc => some acc
  | none :: _, _ => none
  | some none :: rest, acc => scanChecks lim rest acc
  | some (some e) :: rest, acc =>
    if tripsEnd lim (acc.length + 1) then some (e :: acc) else scanChecks lim rest (e :: acc)

/-- `s.add(x)` where membership is `eqv`. -/
def setAddBy {A : Type} (eqv : A → A → Bool) (s : List A) (x : A) : List A :=
  if s.any (fun y => eqv x y) then s else s ++ [x]

/-- `d[k].add(x)` for a `defaultdict(set)` `d`. -/
def groupAddBy {K A : Type} [DecidableEq K] (eqv : A → A → Bool) (d : PyDict K (List A)) (k : K) (x : A) :
    PyDict K (List A) :=
  match d.get? k with
  | none => d.set k [x]
  | some l => d.set k (setAddBy eqv l x)

/-- A `defaultdict(set)` after a sequence of `add`s. -/
def groupBy {K A : Type} [DecidableEq K] (eqv : A → A → Bool) (es : List (K × A)) : PyDict K (List A) :=
  es.foldl (fun d e => groupAddBy eqv d e.1 e.2) []

end Ticdat
