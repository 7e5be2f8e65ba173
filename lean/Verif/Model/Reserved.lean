import Verif.Model.Clone
/-!
# `change_fields_with_reserved_keywords` and `find_case_space_duplicates`

The functions take a factory.  `none` is a raised exception.
-/
namespace Ticdat
variable {V K : Type}

/-- `field.startswith('_')`. -/
def underStart (s : String) : Bool := decide (s.toList.head? = some '_')

/-- `field[1:]`. -/
def dropFirst (s : String) : String := String.ofList (s.toList.drop 1)

/-- The new name of a field (utils.py:815-823). -/
def reservedField (env : CaseEnv) (reserved : List (List Char)) (undo : Bool) (fld : String) : Option String :=
  if undo then some (if underStart fld then dropFirst fld else fld)
  else if underStart fld then none
  else if env.lower fld.toList ∈ reserved then some ("_" ++ fld)
  else some fld

/-- The entry of `tdf_schema` after the loop (utils.py:811-823).  For a generic table `fields[1]` raises `IndexError`. -/
def reservedDecl (env : CaseEnv) (reserved : List (List Char)) (undo : Bool) (p : String × Decl) : Option (String × Decl) :=
  match p.2 with
  | .generic => none
  | .fields pks dfs => (pks.mapM (reservedField env reserved undo)).bind (fun a =>
      (dfs.mapM (reservedField env reserved undo)).map (fun b => (p.1, .fields a b)))

/-- `mapping` (utils.py:810, 824): table, field and new name.  No table has a field twice. -/
def reservedMapping (old new : PyDict String Decl) : List (String × String × String) :=
  (old.zip new).flatMap (fun pq => ((pq.1.2.pks ++ pq.1.2.dfs).zip (pq.2.2.pks ++ pq.2.2.dfs)).map (fun m => (pq.1.1, m.1, m.2)))

/-- The loop of utils.py:826-832. -/
def reservedCopy (f : Factory V K) (g : Factory V K) (m : String × String × String) : Option (Factory V K) :=
  (g.copyDefault m.1 m.2.2 (PyDict.get2 f.defaults m.1 m.2.1)).bind (fun g =>
    g.copyType m.1 m.2.2 (PyDict.get2 f.types m.1 m.2.1))

/-- `change_fields_with_reserved_keywords` (utils.py:808-835).  `ampl_prepend` (833-834) is not part of the model. -/
def changeReserved (env : FactoryEnv) (reserved : List (List Char)) (undo : Bool) (f : Factory V K) : Option (Factory V K) :=
  (f.tables.mapM (reservedDecl env.case reserved undo)).bind (fun ts =>
    (newFactory env ts).bind (fun g => (reservedMapping f.tables ts).foldlM (reservedCopy f) g))

/-- `k.lower().replace(" ", "_")` (utils.py:792). -/
def caseSpaceKey (env : CaseEnv) (fld : String) : List Char := unblank (env.lower fld.toList)

/-- `len(set(l))` distinguishes elements: the distinct elements of a list. -/
def distinctOf {A : Type} [DecidableEq A] (l : List A) : List A := l.foldl (fun s a => if a ∈ s then s else s ++ [a]) []

/-- One round of the loop of `find_case_space_duplicates` (utils.py:790-794); for a generic table `schema[table][1]` raises. -/
def caseSpaceTable (env : CaseEnv) (p : String × Decl) : Option (List (String × List String)) :=
  match p.2 with
  | .generic => none
  | .fields pks dfs =>
    let fields := distinctOf (pks ++ dfs)
    some (if fields.length ≠ (distinctOf (fields.map (caseSpaceKey env))).length then [(p.1, fields)] else [])

/-- `find_case_space_duplicates` (utils.py:782-795).  The fields are a set in the code. -/
def findCaseSpaceDups (env : CaseEnv) (f : Factory V K) : Option (PyDict String (List String)) :=
  (f.tables.mapM (caseSpaceTable env)).map List.flatten

end Ticdat
