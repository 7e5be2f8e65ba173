import Verif.Model.Mip
/-!
# `Model`: constraints, objectives, parameters and results of the optimization engines

model.py:108-240.  Expressions and constraints are opaque; the engines are described by the calls they get and the attributes they have.
-/
namespace Ticdat

/-- What an engine is asked for. -/
inductive EngineCall where
  /-- gurobi `addConstr(constraint, name=..)`. -/
  | addConstr (c : Nat) (name : Option String)
  /-- cplex `add_constraint(constraint, ctname=..)`. -/
  | add_constraint (c : Nat) (ctname : Option String)
  /-- xpress `addConstraint(xpress.constraint(constraint, name=..))`. -/
  | addConstraint (c : Nat) (name : Option String)
  /-- gurobi `addGenConstrIndicator(variable, bool, constraint)`. -/
  | addGenConstrIndicator (v : Nat) (on : Bool) (c : Nat)
  /-- xpress `addIndicator((variable == value, constraint))`. -/
  | addIndicator (v : Nat) (value : Nat) (c : Nat)
  /-- gurobi and xpress `setObjective(expression, sense=..)`. -/
  | setObjective (x : Nat) (maximize : Bool)
  /-- cplex `maximize(expression)`. -/
  | maximize (x : Nat)
  /-- cplex `minimize(expression)`. -/
  | minimize (x : Nat)
deriving DecidableEq, Repr

/-- `{"name":name} if name else {}` (model.py:118, 121, 123). -/
def nameArg (name : String) : Option String := if name = "" then none else some name

/-- `add_constraint` (model.py:108-125). -/
def addConstraintCall (e : Engine) (c : Nat) (name : String) : EngineCall :=
  match e with
  | .gurobi => .addConstr c (nameArg name)
  | .cplex => .add_constraint c (nameArg name)
  | .xpress => .addConstraint c (nameArg name)

/-- `add_indicator_constraint` (model.py:127-140); `none` raises. -/
def addIndicatorCall (e : Engine) (v : Nat) (on : Bool) (c : Nat) : Option EngineCall :=
  match e with
  | .cplex => none
  | .gurobi => some (.addGenConstrIndicator v on c)
  | .xpress => some (.addIndicator v (if on then 1 else 0) c)

/-- `set_objective` (model.py:142-160); `none` raises. -/
def setObjectiveCall (e : Engine) (x : Nat) (sense : String) : Option EngineCall :=
  if sense = "maximize" ∨ sense = "minimize" then
    match e with
    | .gurobi => some (.setObjective x (decide (sense = "maximize")))
    | .cplex => some (if sense = "maximize" then .maximize x else .minimize x)
    | .xpress => some (.setObjective x (decide (sense = "maximize")))
  else none

/-- The settings of the engines that `set_parameters` knows (model.py:177-188). -/
inductive Control where
  | gurobiMIPGap
  | gurobiTimeLimit
  | cplexMipgap
  | xpressMiprelstop
  | xpressTimelimit
deriving DecidableEq, Repr

/-- What is set for one parameter (model.py:172-188); `none` raises. -/
def controlOf (e : Engine) (k : String) : Option Control :=
  if k = "MIP_Gap" then
    match e with
    | .gurobi => some .gurobiMIPGap
    | .cplex => some .cplexMipgap
    | .xpress => some .xpressMiprelstop
  else if k = "time_limit" then
    match e with
    | .gurobi => some .gurobiTimeLimit
    | .cplex => none
    | .xpress => some .xpressTimelimit
  else none

/-- `set_parameters` (model.py:162-188): the settings of the engine afterwards, and whether it raised.  The parameters are set one after
the other. -/
def setParameters (e : Engine) : List (String × Cell) → (Control → Cell) → (Control → Cell) × Bool
  | [], s => (s, false)
  | (k, v) :: rest, s =>
    match controlOf e k with
    | none => (s, true)
    | some c => setParameters e rest (fun x => if x = c then v else s x)

/-- What an engine reports of a solve: the best bound (absent for some models of gurobi, NaN for cplex) and the objective. -/
structure SolveReport where
  bound : Option Rat
  objective : Rat
deriving DecidableEq, Repr

/-- The results that a `Model` can see: the report of the last solve of the engine (`core_model`), and the objective in `_cplex_soln`,
which is kept from the last successful solve (model.py:205-209). -/
structure MipState where
  last : Option SolveReport
  cplexObjective : Option Rat

/-- `optimize` (model.py:190-214), with the report of the engine and whether it found a solution. -/
def MipState.optimize (s : MipState) (r : SolveReport) (solved : Bool) : MipState :=
  ⟨some r, if solved then some r.objective else s.cplexObjective⟩

/-- `get_mip_results` (model.py:228-240) as (best bound, objective value); `none` raises.  Simplification: an xpress report always has a
bound. -/
def MipState.results (e : Engine) (s : MipState) : Option (Rat × Rat) :=
  match s.last with
  | none => none
  | some r =>
    match e with
    | .gurobi => some (r.bound.getD r.objective, r.objective)
    | .cplex => s.cplexObjective.map (fun o => (r.bound.getD o, o))
    | .xpress => some (r.bound.getD r.objective, r.objective)

end Ticdat
