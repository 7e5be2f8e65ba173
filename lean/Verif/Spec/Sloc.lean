import Verif.Model.Sloc
/-!
# What `.sloc` should answer
-/
namespace Ticdat.Spec

/-- The slice `:`. -/
def fullSlice : LocEntry := .slice none none none

/-- A key of labels other than `None` and NaN and of full slices, at least one of each or of either. -/
def PlainKey (es : List LocEntry) : Prop :=
  es ≠ [] ∧ ∀ e ∈ es, e = fullSlice ∨ ∃ a, e = .label a ∧ a ≠ .none ∧ a ≠ .nan

/-- The labels of a row agree with a plain key, which may have fewer entries than the row has labels. -/
def rowMatches : List LocEntry → List Cell → Bool
  | [], _ => true
  | _ :: _, [] => false
  | .label a :: es, x :: l => decide (a = x) && rowMatches es l
  | .slice _ _ _ :: es, _ :: l => rowMatches es l

/-- What `.loc` of pandas is trusted to do with plain keys: if it answers, then with the rows that agree with the key in their order;
if there is such a row then it answers.  If there is none it may answer with an empty series or raise an exception. -/
structure LocOK (loc : Loc) : Prop where
  exact : ∀ s es r, PlainKey es → loc s (.tup es) = some r → r = s.filter (fun p => rowMatches es p.1)
  found : ∀ s es, PlainKey es → (∃ p ∈ s, rowMatches es p.1 = true) → ∃ r, loc s (.tup es) = some r

/-- The entry of a key that means the same to `.sloc` as the argument means to a `Slicer`. -/
def entryOf (star x : Cell) : LocEntry := if x = star then fullSlice else .label x

end Ticdat.Spec
