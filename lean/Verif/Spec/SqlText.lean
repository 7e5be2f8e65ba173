import Verif.Model.SqlText
/-!
# Specification of quoting in SQL
-/
namespace Ticdat.Spec

/-- Two quotes stand next to each other, where the last character counts as standing next to the first (so that the string
of one quote has such a pair). -/
def AdjacentQuotes (x : List Char) : Prop :=
  ∃ i, i < x.length ∧ x[i]? = some quote ∧ x[(i + 1) % x.length]? = some quote

/-- Text with every quote doubled: the correct SQL literal content. -/
def doubled (x : List Char) : List Char := x.flatMap (fun c => if c = quote then [quote, quote] else [c])

end Ticdat.Spec
