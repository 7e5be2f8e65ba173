import Verif.Model.Cell
/-!
# What is asked of progress reports and logged tables
-/
namespace Ticdat.Spec

/-- The order of numbers. -/
def NumLe : XNum → XNum → Prop
  | .ninf, _ => True
  | _, .pinf => True
  | .fin q, .fin r => q ≤ r
  | _, _ => False

/-- The `j`-th column of a line that is divided into columns of `w` characters. -/
def textColumn (w j : Nat) (line : List Char) : List Char := (line.drop (j * w)).take w

/-- A text without the blanks at its end. -/
def rstrip (s : List Char) : List Char := (s.reverse.dropWhile (fun c => c == ' ')).reverse

/-- The width of the columns of a logged table. -/
def LogWidth (columns w : Nat) : Prop :=
  (columns ≤ 2 ∧ w = 30) ∨ (columns = 3 ∧ w = 25) ∨ (columns = 4 ∧ w = 20) ∨ (5 ≤ columns ∧ w = 18)

end Ticdat.Spec
