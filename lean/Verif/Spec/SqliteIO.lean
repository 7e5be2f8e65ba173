import Verif.Model.SqliteIO
import Verif.Spec.TableIO
import Verif.Spec.SqlText
import Verif.Spec.Names
/-!
# Specification of SQLite round trips
-/
namespace Ticdat.Spec

/-- Two databases with the same tables and the same rows, in any order: SQL promises no order of the rows. -/
def SameDb (db db' : SqlDb) : Prop :=
  List.Perm (PyDict.keys db') (PyDict.keys db) ∧
    ∀ t rows, PyDict.get? db t = some rows → ∃ rows', PyDict.get? db' t = some rows' ∧ List.Perm rows' rows

/-- Two tables with the same keys and rows, in any order. -/
def TabPerm : TabVal → TabVal → Prop
  | .keyed d, .keyed d' => List.Perm d' d
  | .plain rows, .plain rows' => List.Perm rows' rows
  | _, _ => False

/-- The same tables with the same keys and rows; only the order of the rows may differ. -/
def SameUpToOrder (dat dat2 : PyDict String TabVal) : Prop :=
  PyDict.keys dat2 = PyDict.keys dat ∧
    ∀ t tab, PyDict.get? dat t = some tab → ∃ tab2, PyDict.get? dat2 t = some tab2 ∧ TabPerm tab tab2

/-- Text that the SQLite reader does not turn into a Boolean or an infinity. -/
def NoSqlWord (cenv : CaseEnv) (cf : IOConf) (s : String) : Prop :=
  cenv.lower s.toList ≠ "true".toList ∧ cenv.lower s.toList ≠ "false".toList ∧
    (cf.flag = .na → cenv.lower s.toList ≠ "inf".toList ∧ cenv.lower s.toList ≠ "-inf".toList)

/-- Text that a .sql file can carry. -/
def SqlFileOK (asSql : Bool) (s : String) : Prop := asSql = true → ¬ AdjacentQuotes s.toList ∧ ';' ∉ s.toList

/-- The column turns numeric text into numbers: it is a data field with a numeric default value. -/
def SqlNumColumn (cf : IOConf) (dv : Defaults) (t f : String) : Prop :=
  ¬ (t = "parameters" ∧ cf.params ≠ []) ∧ ∃ v, dv t f = some v ∧ v.numericish = true

/-- What is needed of names of Booleans and infinities: their lower case is as expected, and they are no numbers. -/
structure SqlWords (cenv : CaseEnv) (senv : SqlEnv) : Prop where
  tr : cenv.lower "True".toList = "true".toList
  fa : cenv.lower "False".toList = "false".toList
  inf : cenv.lower "inf".toList = "inf".toList
  ninf : cenv.lower "-inf".toList = "-inf".toList
  numTr : senv.num "True" = none
  numFa : senv.num "False" = none

/-- A cell outside the adjusted parameters table that survives a SQLite database (`asSql = false`) or a .sql file
(`asSql = true`), in a table with primary key (`keyed = true`) or without. -/
def SqlSafe (env : TextEnv) (senv : SqlEnv) (cenv : CaseEnv) (cf : IOConf) (dv : Defaults) (asSql keyed : Bool)
    (t f : String) (x : Cell) : Prop :=
  JsonSafe env cf t f x ∧
    match x with
    | .none => True
    | .num y => asSql = true → (y = .pinf ∨ y = .ninf) → cf.flag = .na ∨ (keyed = true ∧ ∃ q, cf.flag = .num q)
    | .bool _ => keyed = true
    | .str s => NoSqlWord cenv cf s ∧ (SqlNumColumn cf dv t f → senv.num s = none) ∧ SqlFileOK asSql s
    | .dt d => NoSqlWord cenv cf (env.text (.dt d)) ∧ (SqlNumColumn cf dv t f → senv.num (env.text (.dt d)) = none)
    | _ => False

/-- An entry of the parameters table that survives. -/
def SqlParam (env : TextEnv) (cenv : CaseEnv) (cf : IOConf) (asSql : Bool) (k v : Cell) : Prop :=
  JsonParam env cf.params k v ∧
    (∀ s, k = .str s ∨ v = .str s → cenv.lower s.toList ≠ "true".toList ∧ cenv.lower s.toList ≠ "false".toList ∧
      SqlFileOK asSql s) ∧
    (∀ d, v = .dt d → cenv.lower (env.text (.dt d)).toList ≠ "true".toList ∧
      cenv.lower (env.text (.dt d)).toList ≠ "false".toList) ∧
    (asSql = true → ∀ y, k = .num y ∨ v = .num y → y ≠ .pinf ∧ y ≠ .ninf)

end Ticdat.Spec
