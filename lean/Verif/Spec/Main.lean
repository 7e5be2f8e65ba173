import Verif.Model.Main

/-!
# Specification: the command line of an engine
-/
namespace Ticdat.Spec
open Ticdat

/-- The file name `f` has this ending. -/
def Ending (f e : String) : Prop := ∃ p : String, f = p ++ e

/-- The format that a file name implies, as documented in `standard_main`. -/
def FormatOf (k : MainKind) (f : String) : Fmt → Prop
  | .json => Ending f ".json"
  | .xls => Ending f ".xls" ∨ Ending f ".xlsx"
  | .db => Ending f ".db"
  | .sql => k = .tic ∧ Ending f ".sql"
  | .mdb => k = .tic ∧ (Ending f ".mdb" ∨ Ending f ".accdb")
  | .csv =>
    ¬ Ending f ".json" ∧ ¬ Ending f ".xls" ∧ ¬ Ending f ".xlsx" ∧ ¬ Ending f ".db" ∧
      (k = .tic → ¬ Ending f ".sql" ∧ ¬ Ending f ".mdb" ∧ ¬ Ending f ".accdb")

/-- There is a file of this name, or for .csv files a directory. -/
def Present (fs : Paths) (f : String) : Fmt → Prop
  | .csv => fs.isDir f = true
  | _ => fs.isFile f = true

/-- `dat` is what is read from the file or directory `f`, which has no duplicate rows if they can be looked for. -/
def Loaded {D S E : Type} (k : MainKind) (env : MainEnv D S E) (f : String) (fmt : Fmt) (dat : D) : Prop :=
  FormatOf k f fmt ∧ Present env.fs f fmt ∧ env.read fmt f = some dat ∧
    (k = .tic → fmt ≠ .sql → env.hasDups fmt f = false)

/-- The data of the run: what is read from the input; nothing if the name of the input is empty. -/
def DataOf {D S E : Type} (k : MainKind) (env : MainEnv D S E) (input : String) : Option D → Prop
  | none => input = ""
  | some d => input ≠ "" ∧ ∃ fmt, Loaded k env input fmt d

/-- An error report is asked for. -/
def Asked (errors : Option String) (f : String) : Prop := errors = some f ∧ f ≠ ""

/-- The report of the integrity errors of `dat` can be made and written to the file `f`. -/
def Reported {D S E : Type} (k : MainKind) (env : MainEnv D S E) (dat : Option D) (f : String) (fmt : Fmt) (err : E) (n : Nat) : Prop :=
  (∃ d, dat = some d ∧ env.report d = some (err, n)) ∧ FormatOf k f fmt ∧ fmt ≠ .sql ∧ fmt ≠ .mdb

/-- If a report is asked for, it can be made, can be written and lists no error. -/
def Cleared {D S E : Type} (k : MainKind) (env : MainEnv D S E) (dat : Option D) (errors : Option String) : Prop :=
  ∀ f, Asked errors f → ∃ fmt err, Reported k env dat f fmt err 0

/-- `solve` returned the solution `s`. -/
def Solution {S : Type} (r : SolveResult S) (s : S) : Prop := r = .solution s ∨ ∃ m, r = .message m (some s)

/-- The phases of a run. -/
def phase {D S E : Type} : MainEvent D S E → Nat
  | .read _ _ => 0
  | .writeErrors _ _ _ => 1
  | .solve _ => 2
  | .write _ _ _ => 3

/-- The last argument given for an option, or its default. -/
def lastOr {A : Type} (d : A) (l : List A) : A := l.getLast?.getD d

/-- The arguments given for the input, the output and the errors. -/
def inputs (l : List Opt) : List String := l.filterMap (fun o => match o with | .input a => some a | _ => none)
def outputs (l : List Opt) : List String := l.filterMap (fun o => match o with | .output a => some a | _ => none)
def errorFiles (l : List Opt) : List String := l.filterMap (fun o => match o with | .errors a => some a | _ => none)

end Ticdat.Spec
