import Verif.Model.Mip
/-!
# Specification: variables of an optimization model
-/
namespace Ticdat.Spec
open Ticdat

/-- The values that a variable with these bounds may take. -/
def Within (lb ub : XNum) (x : Rat) : Prop := XNum.le lb (.fin x) = true ∧ XNum.le (.fin x) ub = true

/-- The values of a type. -/
def OfType : VarType → Rat → Prop
  | .continuous, _ => True
  | .binary, x => x = 0 ∨ x = 1
  | .integer, x => ∃ n : Int, x = n

/-- The values that the engines allow, according to their manuals.  Whether xpress looks at the bounds of a binary variable
(`honours`) is left open. -/
def Allowed (honours : Bool) : VarCall → Rat → Prop
  | .gurobi t lb ub, x => OfType t x ∧ Within lb ub x
  | .cplexContinuous lb ub, x => Within lb ub x
  | .cplexInteger lb ub, x => (∃ n : Int, x = n) ∧ Within lb ub x
  | .cplexBinary fix, x => (x = 0 ∨ x = 1) ∧ ∀ r, fix = some r → XNum.fin x = r
  | .xpress t lb ub fix, x =>
    OfType t x ∧ ((t = .binary ∧ honours = false) ∨ Within lb ub x) ∧ ∀ r, fix = some r → XNum.fin x = r

/-- The user's arguments make sense: numbers, not the wrong way round, that some number lies between; for a binary variable 0 or 1, or
no upper bound. -/
def GoodVar (t : VarType) (lb ub : XNum) : Prop :=
  XNum.le lb ub = true ∧ lb ≠ .pinf ∧ ub ≠ .ninf ∧
    (t = .binary → (lb = .fin 0 ∨ lb = .fin 1) ∧ (ub = .fin 0 ∨ ub = .fin 1 ∨ ub = .pinf))

/-- The name of a type. -/
def typeName : VarType → String
  | .continuous => "continuous"
  | .binary => "binary"
  | .integer => "integer"

/-- The variables that a history adds. -/
def added : List MipOp → List Nat
  | [] => []
  | .addVar v :: rest => v :: added rest
  | .optimize _ :: rest => added rest

end Ticdat.Spec
