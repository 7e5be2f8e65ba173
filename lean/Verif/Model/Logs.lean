import Verif.Model.Cell
/-!
# `Progress` and `LogFile`

utils.py:1158-1303.  Texts are lists of characters.  Simplifications: the arithmetic on bounds is exact; how `"{:.5f}".format` writes a
number is an arbitrary function; the solvers are described by the numbers they report.
-/
namespace Ticdat

/-- `s.ljust(n)`. -/
def ljust (n : Nat) (s : List Char) : List Char := s ++ List.replicate (n - s.length) ' '

/-- `lower_bound - abs(lower_bound) * .00001 <= upper_bound` (utils.py:1240) for two numbers.  For `inf` the left side is
`inf - inf`, which is NaN. -/
def boundsOK : XNum → XNum → Bool
  | .pinf, _ => false
  | .ninf, _ => true
  | .fin _, .ninf => false
  | .fin _, .pinf => true
  | .fin q, .fin r => decide (q - (if 0 ≤ q then q else -q) * (1 / 100000) ≤ r)

/-- What a method of `Progress` did: the lines it printed and what it returned. -/
structure Printed where
  lines : List (List Char)
  keepGoing : Bool
deriving DecidableEq, Repr

/-- `numerical_progress` (utils.py:1216-1227); `none` raises.  `fmt` is `"{:.5f}".format`. -/
def numericalProgress (fmt : Cell → List Char) (quiet : Bool) (theme progress : Cell) : Option Printed :=
  match theme with
  | .str s =>
    if !progress.numericish then none
    else some ⟨if quiet then [] else [ljust 40 s.toList ++ [':'] ++ fmt progress], true⟩
  | _ => none

/-- `mip_progress` (utils.py:1228-1244); `none` raises.  A comparison with NaN is false. -/
def mipProgress (fmt : Cell → List Char) (quiet : Bool) (theme lb ub : Cell) : Option Printed :=
  match theme with
  | .str s =>
    if !(lb.numericish && ub.numericish) then none
    else
      match lb, ub with
      | .num l, .num u =>
        if !boundsOK l u then none
        else some ⟨if quiet then [] else [ljust 30 s.toList ++ [':'] ++ ljust 20 (fmt lb) ++ [':'] ++ fmt ub], true⟩
      | _, _ => none
  | _ => none

/-- `lb, ub = (lb, ub) if sense == "minimize" else (ub, lb)` (utils.py:1260, 1279, 1299). -/
def orderBounds (minimize : Bool) (bound objective : Cell) : Cell × Cell :=
  if minimize then (bound, objective) else (objective, bound)

/-- The callback of `gurobi_call_back_factory` (utils.py:1256-1263), for a `mip_progress` that may be overridden.  `mip` says whether
`where` is `MIP`.  `some true` terminates the solve, `none` raises. -/
def gurobiCallback (progress : Cell → Cell → Option Bool) (minimize mip : Bool) (bound objective : Cell) : Option Bool :=
  if mip then
    let b := orderBounds minimize bound objective
    (progress b.1 b.2).map (fun go => !go)
  else some false

/-- The callback of `add_xpress_callback` (utils.py:1274-1281): it returns 1 to stop. -/
def xpressCallback (progress : Cell → Cell → Option Bool) (minimize : Bool) (bound objective : Cell) : Option Bool :=
  let b := orderBounds minimize bound objective
  (progress b.1 b.2).map (fun go => if go then false else true)

/-- A dictionary as an argument. -/
def dictArg : Cell := .other 0

/-- The listener of `add_cplex_listener` (utils.py:1295-1302).  Without an incumbent the objective is replaced by the dictionary
`no_feasible_yet`, not by one of its values (1296-1297). -/
def cplexListener (progress : Cell → Cell → Option Bool) (minimize : Bool) (bound : Cell) (objective : Option Cell) : Option Bool :=
  let b := orderBounds minimize bound (objective.getD dictArg)
  (progress b.1 b.2).map (fun go => !go)

/-- `list(seq)[:n]` for any integer `n`. -/
def pySliceTo {A : Type} (n : Int) (l : List A) : List A :=
  if 0 ≤ n then l.take n.toNat else l.take (l.length - (-n).toNat)

/-- The width of the columns (utils.py:1196-1203). -/
def columnWidth (cols : Nat) : Nat :=
  if cols ≤ 2 then 30 else if cols = 3 then 25 else if cols = 4 then 20 else 18

/-- `str` of an integer. -/
def intText (n : Int) : List Char := (toString n).toList

/-- A row as it is written, without its newline (utils.py:1208). -/
def rowLine (formatter : Cell → List Char) (w : Nat) (row : List Cell) : List Char :=
  (row.map (fun c => ljust w (formatter c))).flatten

/-- `log_table` (utils.py:1173-1209): the lines written (each ends with a newline), `none` raises.  `hasFile` is false for a `LogFile`
made with an empty path, which writes nothing (1163-1166).  `seq` is a list of lists. -/
def logTable (formatter : Cell → List Char) (hasFile : Bool) (name : List Char) (seq : List (List Cell)) (maxWrite : Int) :
    Option (List (List Char)) :=
  match seq with
  | [] => none
  | header :: rest =>
    if rest.all (fun r => r.length == header.length) then
      if hasFile then
        let w := columnWidth header.length
        some (["Table ".toList ++ name ++ [':']] ++
          (if (rest.length : Int) > maxWrite then
            ["(Showing first ".toList ++ intText maxWrite ++ " entries out of ".toList ++ intText rest.length ++ " in total)".toList]
          else []) ++
          (pySliceTo (maxWrite + 1) seq).map (rowLine formatter w) ++ [[]])
      else some []
    else none

end Ticdat
