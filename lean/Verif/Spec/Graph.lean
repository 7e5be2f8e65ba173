import Verif.Model.Schema
/-! # Specification: paths and dependency orders of the foreign key graph -/
namespace Ticdat.Spec

/-- There is a declared foreign key from `a` (native) to `b` (foreign). -/
def Edge (fks : List FK) (a b : String) : Prop := ∃ k ∈ fks, k.native = a ∧ k.foreign = b

/-- `b` can be reached from `a` by following zero or more foreign keys. -/
inductive Path (fks : List FK) : String → String → Prop
  | refl (a : String) : Path fks a a
  | step {a b c : String} : Edge fks a b → Path fks b c → Path fks a c

/-- `b` can be reached from `a` by following one or more foreign keys. -/
def Path1 (fks : List FK) (a c : String) : Prop := ∃ b, Edge fks a b ∧ Path fks b c

/-- No table can be reached from itself: the foreign keys are acyclic. -/
def Acyclic (fks : List FK) : Prop := ∀ t, ¬ Path1 fks t t

/-- The keys that are not self references. -/
def nonSelf (fks : List FK) : List FK := fks.filter (fun k => k.native ≠ k.foreign)

/-- Every table comes after the tables it refers to. -/
def ForeignFirst (fks : List FK) (order : List String) : Prop :=
  ∀ k ∈ fks, k.native ≠ k.foreign → ∀ pre post, order = pre ++ k.native :: post → k.foreign ∈ pre

end Ticdat.Spec
