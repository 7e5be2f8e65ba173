import Verif.Model.Names
/-!
# Specifications about names
-/
namespace Ticdat.Spec

/-- What Python's character tables satisfy, as far as the name matching depends on it: blanks and underscores have no case
and are not the upper or lower case of anything else; `.csv` is lower case; lower case characters have themselves as
lower case; digits are alphanumeric. -/
structure CaseLaws (env : CaseEnv) : Prop where
  lo_blank : env.lo ' ' = [' ']
  lo_under : env.lo '_' = ['_']
  up_under : env.up '_' = ['_']
  lo_no_blank : ∀ c, ' ' ∈ env.lo c → c = ' '
  up_no_under : ∀ c, '_' ∈ env.up c → c = '_'
  lo_csv : env.lower ".csv".toList = ".csv".toList
  lo_idem : ∀ c, ∀ d ∈ env.lo c, env.lo d = [d]
  digit_alnum : ∀ c, env.digit c = true → env.alnum c = true
  under_digit : env.digit '_' = false

/-- Upper and lower case of every character of the name are inverse to each other as far as it matters: the lower case of
its upper case is its lower case (false for the German sharp s). -/
def CaseRoundTrip (env : CaseEnv) (s : List Char) : Prop := ∀ c ∈ s, (env.up c).flatMap env.lo = env.lo c

/-- Case never changes the number of characters. -/
def SimpleCase (env : CaseEnv) : Prop := ∀ c, ∃ d, env.lo c = [d]

/-- Two names that a reader cannot tell apart. -/
def SameUpToCase (env : CaseEnv) (a b : List Char) : Prop := env.lower a = env.lower b

end Ticdat.Spec
