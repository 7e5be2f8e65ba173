import Verif.Model.AmplSet
/-!
# Specification of `set_ampl_data`
-/
namespace Ticdat.Spec

/-- A call of `setData`: a frame, and the name of a set if one is given. -/
abbrev AmplCall := AmplFrame × Option String

/-- These calls, one after the other, lead from one state to the other. -/
inductive Calls {S : Type} (setData : AmplFrame → Option String → S → Option S) : List AmplCall → S → S → Prop
  | nil (s : S) : Calls setData [] s s
  | cons {c : AmplCall} {rest : List AmplCall} {s s' s'' : S} (h : setData c.1 c.2 s = some s') (hr : Calls setData rest s' s'') :
      Calls setData (c :: rest) s s''

/-- The call for a table: its frame, and the name given for it. -/
def CallFor (obj : PyDict String AmplFrame) (names : SetNames) (t : String) (c : AmplCall) : Prop :=
  (t, c.1) ∈ obj ∧ ((∃ n, (t, some n) ∈ names ∧ c.2 = some n) ∨ (t ∉ PyDict.keys names ∧ c.2 = none))

/-- The arguments are in order: the object has tables of the schema only, and names are given, as strings, to attributes of the object
only. -/
def SetArgs (all hidden : List String) (obj : PyDict String AmplFrame) (names : SetNames) : Prop :=
  (∀ t ∈ PyDict.keys obj, t ∈ all) ∧
    ∀ t v, (t, v) ∈ names → (t ∈ PyDict.keys obj ∨ t ∈ hidden) ∧ ∃ n, v = some n

/-- The order of calls does not matter to this AMPL. -/
def Commutes {S : Type} (setData : AmplFrame → Option String → S → Option S) : Prop :=
  ∀ (a b : AmplCall) (s s' s'' : S), setData a.1 a.2 s = some s' → setData b.1 b.2 s' = some s'' →
    ∃ u, setData b.1 b.2 s = some u ∧ setData a.1 a.2 u = some s''

end Ticdat.Spec
