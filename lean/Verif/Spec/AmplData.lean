import Verif.Model.AmplData
import Verif.Spec.Frame
/-!
# Specification of exchanging data with AMPL (C70)
-/
namespace Ticdat.Spec
open PyDict

/-- The primary key for the index of an AMPL value: the entry itself if there is one, otherwise the tuple. -/
def indexKey : List Cell → KeyArg
  | [x] => .one x
  | xs => .tup xs

/-- The value is copied: it satisfies the filter, or, if none was given, it is not zero. -/
def Passing (e : AmplEntry) (x : Cell) : Prop :=
  match e.filter with
  | some p => p x = true
  | none => x ≠ .num (.fin 0) ∧ x ≠ .bool false

/-- The entry has no field: it only gives primary keys. -/
def KeysOnly (e : AmplEntry) : Prop := e.field = none ∨ e.field = some ""

/-- `ampl_variables` as AMPL and Python make it: the keys of the dictionary are distinct, the indices of a variable are
distinct and have the same number of entries. -/
structure AmplVars (es : List AmplEntry) : Prop where
  keys : (es.map (fun e => (e.table, e.field))).Nodup
  index : ∀ e ∈ es, (e.values.map Prod.fst).Nodup
  levels : ∀ e ∈ es, ∀ p ∈ e.values, p.1.length = e.levels

/-- The default value of a data field. -/
def defaultOf (c : TabClass) (f : String) : Cell := (get? c.defaults f).getD (.num (.fin 0))

/-- Some entry gives the value `x` to the field `f` of the row with key `k` of table `t`. -/
def Gives (es : List AmplEntry) (t f : String) (k : KeyArg) (x : Cell) : Prop :=
  f ≠ "" ∧ ∃ e ∈ es, e.table = t ∧ e.field = some f ∧ ∃ p ∈ e.values, Passing e p.2 ∧ indexKey p.1 = k ∧ p.2 = x

/-- The table `t` has the content of the variables: its keys are the indices of the values that are copied, for any field
or for none; each data field has the value of its variable, and if there is none its default value. -/
structure AmplContent (es : List AmplEntry) (t : String) (c : TabClass) (d : PyDict KeyArg RowVal) : Prop where
  nodup : (keys d).Nodup
  keys : ∀ k, k ∈ keys d ↔ ∃ e ∈ es, e.table = t ∧ ∃ p ∈ e.values, Passing e p.2 ∧ indexKey p.1 = k
  fields : ∀ k row, get? d k = some row → PyDict.keys row = c.dfs
  cells : ∀ k row, get? d k = some row → ∀ f ∈ c.dfs, ∀ x,
    get? row f = some x ↔ Gives es t f k x ∨ ((∀ y, ¬ Gives es t f k y) ∧ x = defaultOf c f)

/-- The data object has every table of the schema, with the content of the variables; tables without primary key are
empty. -/
structure AmplResult (schema : List (String × TabClass)) (es : List AmplEntry) (out : PyDict String TabVal) : Prop where
  tables : keys out = schema.map Prod.fst
  plain : ∀ tc ∈ schema, tc.2.pks = [] → get? out tc.1 = some (.plain [])
  keyed : ∀ tc ∈ schema, tc.2.pks ≠ [] → ∃ d, get? out tc.1 = some (.keyed d) ∧ AmplContent es tc.1 tc.2 d

/-- A schema as a factory has it, where exactly the data fields have default values. -/
structure AmplSchema (case : CaseEnv) (schema : List (String × TabClass)) : Prop where
  names : (schema.map Prod.fst).Nodup
  decls : ∀ tc ∈ schema, goodDecl case (.fields tc.2.pks tc.2.dfs) = true
  dict : ∀ tc ∈ schema, (keys tc.2.defaults).Nodup
  defaults : ∀ tc ∈ schema, ∀ f, f ∈ keys tc.2.defaults ↔ f ∈ tc.2.dfs

/-- An entry that can be copied.  Its table has a primary key; its field is a data field or there is none; unless AMPL has
no values for it, the index has as many entries as the primary key (or no value of a multi-entry index is copied), and
fields called "name" and "ticdat_dummy" are not in the way. -/
def AmplFits (case : CaseEnv) (schema : List (String × TabClass)) (e : AmplEntry) : Prop :=
  ∃ c, get? schema e.table = some c ∧ c.pks ≠ [] ∧ (KeysOnly e ∨ ∃ f ∈ c.dfs, e.field = some f) ∧
    (e.values ≠ [] → ("name" ∈ c.pks → c.pks.length = 1) ∧ (¬ KeysOnly e → "name" ∉ c.dfs) ∧
      (KeysOnly e → ∀ f ∈ c.pks, case.lower f.toList ≠ case.lower "ticdat_dummy".toList) ∧
      (e.levels = c.pks.length ∨ (c.pks.length ≠ 1 ∧ ∀ p ∈ e.values, ¬ Passing e p.2)))

/-- The name of a field in AMPL. -/
def newName (ren : Renamings) (t f : String) : String := (get? ren (t, f)).getD f

/-- The value of a field in a row of cells. -/
def rowField (fields : List String) (r : List Cell) (f : String) : Cell := (r[fields.idxOf f]?).getD (.num (.fin 0))

/-- What AMPL gets for a table: one column for each primary key field, which together are the index, and one for each
other field that is not left out, all under their new names and with the values that `col` says. -/
structure SentTable (pks others : List String) (name : String → String) (col : String → List Cell → Prop) (a : AmplFrame) :
    Prop where
  index : a.index = pks.map name
  keyCols : Pairwise2 (fun f p => p.1 = name f ∧ col f p.2) pks a.setCols
  dataCols : Pairwise2 (fun f p => p.1 = name f ∧ col f p.2) (others.filter (fun f => decide (name f ≠ ""))) a.addCols

/-- The tables that are copied: those with a primary key that are not excluded. -/
def Sent (schema : List (String × Option TabClass)) (excluded : List String) (t : String) (c : TabClass) : Prop :=
  (t, some c) ∈ schema ∧ c.pks ≠ [] ∧ t ∉ excluded

/-- A renaming that is possible: of a field of a table that is copied; only data fields can be left out. -/
def RenamingOK (schema : List (String × Option TabClass)) (excluded : List String) (p : (String × String) × String) : Prop :=
  ∃ c, Sent schema excluded p.1.1 c ∧ p.1.2 ∈ c.fields ∧ (p.2 = "" → p.1.2 ∈ c.dfs)

/-- The same for a `PanDat`: of any column of the table. -/
def PanRenamingOK (schema : List (String × Option TabClass)) (excluded : List String) (dat : String → Frame)
    (p : (String × String) × String) : Prop :=
  ∃ c, Sent schema excluded p.1.1 c ∧ Label.name p.1.2 ∈ (dat p.1.1).cols ∧ (p.2 = "" → p.1.2 ∉ c.pks)

end Ticdat.Spec
