import Verif.Model.Cell
/-!
# `Model`: the pass-through to the optimization engines

model.py.  The engines are described by the calls that they get.  Simplifications: names of variables and constraints are left out;
parameters and the objective are passed through and not modelled.
-/
namespace Ticdat

/-- `model_type` (model.py:28-43). -/
inductive Engine where
  | gurobi
  | cplex
  | xpress
deriving DecidableEq, Repr

/-- The types of variables (model.py:72). -/
inductive VarType where
  | continuous
  | binary
  | integer
deriving DecidableEq, Repr

/-- `type in ["continuous", "binary", "integer"]` (model.py:72); `none` raises. -/
def varType (s : String) : Option VarType :=
  if s = "continuous" then some .continuous else if s = "binary" then some .binary else if s = "integer" then some .integer else none

/-- The number in an argument that passed `numericish` (model.py:73); NaN is one, but fails the comparison `ub >= lb` (74). -/
def boundOf : Cell → Option XNum
  | .num x => some x
  | _ => none

/-- `x in [0, 1]` (model.py:79). -/
def zeroOne (x : XNum) : Bool := decide (x = .fin 0) || decide (x = .fin 1)

/-- The checks at the beginning of `add_var` (model.py:72-79); `none` raises. -/
def checkVar (lb ub : Cell) (type : String) : Option (VarType × XNum × XNum) :=
  match varType type with
  | none => none
  | some t =>
    if !(lb.numericish && ub.numericish) then none
    else
      match boundOf lb, boundOf ub with
      | some l, some u =>
        if !XNum.le l u then none
        else if !XNum.lt l .pinf then none
        else if !XNum.lt .ninf u then none
        else if t = .binary then
          let u' := if u = .pinf then .fin 1 else u
          if zeroOne l && zeroOne u' then some (t, l, u') else none
        else some (t, l, u)
      | _, _ => none

/-- What the engine is asked for: a variable, and an equation for it (`fix`). -/
inductive VarCall where
  | gurobi (t : VarType) (lb ub : XNum)
  | cplexContinuous (lb ub : XNum)
  | cplexInteger (lb ub : XNum)
  | cplexBinary (fix : Option XNum)
  | xpress (t : VarType) (lb ub : XNum) (fix : Option XNum)
deriving DecidableEq, Repr

/-- `rhs` (model.py:92, 103). -/
def fixedTo (lb ub : XNum) : Option XNum :=
  if ub = .fin 0 then some ub else if XNum.le (.fin 1) lb then some lb else none

/-- `add_var` (model.py:63-106). -/
def addVarCall (e : Engine) (lb ub : Cell) (type : String) : Option VarCall :=
  match checkVar lb ub type with
  | none => none
  | some (t, l, u) =>
    match e with
    | .gurobi => some (.gurobi t l u)
    | .cplex =>
      match t with
      | .continuous => some (.cplexContinuous l u)
      | .integer => some (.cplexInteger l u)
      | .binary => some (.cplexBinary (fixedTo l u))
    | .xpress => some (.xpress t l u (if t = .binary then fixedTo l u else none))

/-- The state of a `Model` over xpress (model.py:49-50): the columns of the problem, `_var_index` and `_xpress_solution_list`. -/
structure XpressModel where
  columns : List Nat
  index : List (Nat × Nat)
  solution : List Rat
deriving DecidableEq, Repr

/-- `__init__` (model.py:41-50). -/
def XpressModel.init : XpressModel := ⟨[], [], []⟩

/-- `add_var` with a new variable object (model.py:98-100). -/
def XpressModel.addVar (m : XpressModel) (v : Nat) : XpressModel :=
  { m with columns := m.columns ++ [v], index := m.index ++ [(v, m.index.length)] }

/-- `optimize` (model.py:210-214): the solver finds a value for every column, or `none`. -/
def XpressModel.optimize (m : XpressModel) (r : Option (Nat → Rat)) : XpressModel :=
  { m with solution := match r with | some f => m.columns.map f | none => [] }

/-- `get_solution_value` (model.py:225-226); `none` raises. -/
def XpressModel.value (m : XpressModel) (v : Nat) : Option Rat :=
  match m.index.lookup v with
  | none => none
  | some i => m.solution[i]?

/-- The state of a `Model` over cplex: the variables, and `_cplex_soln` (model.py:208), which a `Model` does not have at first. -/
structure CplexModel where
  columns : List Nat
  solution : Option (List (Nat × Rat))

/-- `__init__` (model.py:41-50). -/
def CplexModel.init : CplexModel := ⟨[], none⟩

/-- `add_var` (model.py:86-95). -/
def CplexModel.addVar (m : CplexModel) (v : Nat) : CplexModel := { m with columns := m.columns ++ [v] }

/-- `optimize` (model.py:205-209). -/
def CplexModel.optimize (m : CplexModel) (r : Option (Nat → Rat)) : CplexModel :=
  match r with
  | some f => { m with solution := some (m.columns.map (fun v => (v, f v))) }
  | none => m

/-- `get_solution_value` (model.py:223-224).  Simplification: a variable that the solution does not know raises. -/
def CplexModel.value (m : CplexModel) (v : Nat) : Option Rat :=
  match m.solution with
  | none => none
  | some s => s.lookup v

/-- What a user does to a `Model`. -/
inductive MipOp where
  | addVar (v : Nat)
  | optimize (r : Option (Nat → Rat))

/-- A history over xpress. -/
def XpressModel.step (m : XpressModel) : MipOp → XpressModel
  | .addVar v => m.addVar v
  | .optimize r => m.optimize r

/-- A history over cplex. -/
def CplexModel.step (m : CplexModel) : MipOp → CplexModel
  | .addVar v => m.addVar v
  | .optimize r => m.optimize r

end Ticdat
