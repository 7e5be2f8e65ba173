import Verif.Model.Cell
/-!
# Specifications for the small utilities
-/
namespace Ticdat.Spec

/-- The index tuple agrees with the arguments at every position that is not a wildcard. -/
def sliceMatches {A : Type} [DecidableEq A] (star : A) (args ix : List A) : Bool :=
  (args.zip ix).all (fun p => decide (p.1 = star) || decide (p.1 = p.2))

/-- `s'` is `s` with some of its underscores (any subset of them) replaced by blanks. -/
inductive BlankedVariant : List Char → List Char → Prop where
  | nil : BlankedVariant [] []
  | same (c : Char) {s s' : List Char} : BlankedVariant s s' → BlankedVariant (c :: s) (c :: s')
  | blank {s s' : List Char} : BlankedVariant s s' → BlankedVariant ('_' :: s) (' ' :: s')

/-- The primary key value of a record: the scalar for a one-field key, else the tuple. -/
def keyValue {V : Type} (flds : List String) (row : String → V) : PKey V :=
  match flds with
  | [f] => .one (row f)
  | fs => .many (fs.map row)

/-- How often a key value occurs among the records. -/
def occurrences {V : Type} [DecidableEq V] (flds : List String) (rows : List (String → V)) (k : PKey V) : Nat :=
  rows.countP (fun r => decide (keyValue flds r = k))

/-- All cells of the row are empty. -/
def EmptyRow (row : List Cell) : Prop := ∀ c ∈ row, c = .none ∨ c = .nan

end Ticdat.Spec
