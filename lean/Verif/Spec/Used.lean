import Verif.Model.Factory
/-!
# Specification: what is fixed once a factory has been used (C28)
-/
namespace Ticdat.Spec
variable {V K : Type}

/-- The two factories have the same tables, fields, foreign keys, default values, data types, generator tables and data
row predicates. -/
structure SameRules (f g : Factory V K) : Prop where
  tables : g.tables = f.tables
  fks : g.fks = f.fks
  defaults : g.defaults = f.defaults
  types : g.types = f.types
  generators : g.generators = f.generators
  preds : g.preds = f.preds

/-- The calls that set foreign keys, default values, data types, generator tables, data row predicates or add a
parameter. -/
inductive SetsRules : FOp V K → Prop
  | setDataType (t fld : String) (a : TypeArgs) : SetsRules (.setDataType t fld a)
  | clearDataType (t fld : String) : SetsRules (.clearDataType t fld)
  | setDefault (t fld : String) (c : Cell) : SetsRules (.setDefault t fld c)
  | setDefaults (l : PyDict String (PyDict String Cell)) : SetsRules (.setDefaults l)
  | addFK (n m : String) (mp : List (String × String)) : SetsRules (.addFK n m mp)
  | clearFKs (n : Option String) : SetsRules (.clearFKs n)
  | addImplied : SetsRules .addImplied
  | addParam (n d : Cell) (e : Option TypeArgs) : SetsRules (.addParam n d e)
  | setGenerators (g : List String) : SetsRules (.setGenerators g)
  | addRowPred (c : PredCall V K) : SetsRules (.addRowPred c)

/-- `clear_data_type` on a field that has no data type: there is nothing to clear. -/
def ClearsNothing (f : Factory V K) (op : FOp V K) : Prop :=
  ∃ t fld, op = .clearDataType t fld ∧ PyDict.get2 f.types t fld = none

end Ticdat.Spec
