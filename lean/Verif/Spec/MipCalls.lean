import Verif.Model.MipCalls
/-!
# What is asked of the pass-through to the engines
-/
namespace Ticdat.Spec

/-- What an engine holds after a call: a constraint with a name, a constraint that is in force when a binary variable has a value, or an
objective. -/
inductive Meaning where
  | constraint (c : Nat) (name : Option String)
  | indicator (v : Nat) (value : Nat) (c : Nat)
  | objective (x : Nat) (maximize : Bool)
deriving DecidableEq, Repr

/-- The meaning of the calls in the documentation of the engines. -/
def meaning : EngineCall → Meaning
  | .addConstr c n => .constraint c n
  | .add_constraint c n => .constraint c n
  | .addConstraint c n => .constraint c n
  | .addGenConstrIndicator v on c => .indicator v (if on then 1 else 0) c
  | .addIndicator v x c => .indicator v x c
  | .setObjective x b => .objective x b
  | .maximize x => .objective x true
  | .minimize x => .objective x false

/-- The name of a setting in the documentation of an engine, if the engine has it through `set_parameters`. -/
inductive Sets : Engine → String → Control → Prop
  | gurobiGap : Sets .gurobi "MIP_Gap" .gurobiMIPGap
  | cplexGap : Sets .cplex "MIP_Gap" .cplexMipgap
  | xpressGap : Sets .xpress "MIP_Gap" .xpressMiprelstop
  | gurobiTime : Sets .gurobi "time_limit" .gurobiTimeLimit
  | xpressTime : Sets .xpress "time_limit" .xpressTimelimit

end Ticdat.Spec
