import Verif.Model.TableIO
import Verif.Spec.Init
import Verif.Spec.CellIO
/-!
# Specification of table round trips
-/
namespace Ticdat.Spec

/-- Two lists of the same length whose entries are related in order. -/
inductive Pairwise2 {A B : Type} (R : A → B → Prop) : List A → List B → Prop
  | nil : Pairwise2 R [] []
  | cons {a b l l'} : R a b → Pairwise2 R l l' → Pairwise2 R (a :: l) (b :: l')

/-- Does the table have the cell `x` in the field `f`: in a key, or in a row. -/
def HasCell (c : TabClass) (tab : TabVal) (f : String) (x : Cell) : Prop :=
  match tab with
  | .keyed d => ∃ p ∈ d, (∃ i : Nat, c.pks[i]? = some f ∧ (keyCells p.1)[i]? = some x) ∨ PyDict.get? p.2 f = some x
  | .plain rows => ∃ row ∈ rows, PyDict.get? row f = some x

/-- The rows of a table as lists of cells, key cells first. -/
def tabRows : TabVal → List (List Cell)
  | .keyed d => d.map (fun p => keyCells p.1 ++ p.2.map Prod.snd)
  | .plain rows => rows.map (fun row => row.map Prod.snd)

/-- Two rows of cells in the same fields, related cell by cell. -/
def RowRel (fields : List String) (R : String → Cell → Cell → Prop) (r r' : List Cell) : Prop :=
  r.length = fields.length ∧ r'.length = fields.length ∧
    ∀ (i : Nat) f x y, fields[i]? = some f → r[i]? = some x → r'[i]? = some y → R f x y

/-- Two tables with the same fields, related row by row in order and cell by cell. -/
def TabRel (c : TabClass) (R : String → Cell → Cell → Prop) (tab tab' : TabVal) : Prop :=
  Pairwise2 (RowRel c.fields R) (tabRows tab) (tabRows tab')

/-- A json row as it is written and as it is loaded: lists are the same, dictionaries have the same entries in any order
(`sort_keys=True`). -/
def SameJsonRow : RowIn → RowIn → Prop
  | .dict d, .dict d' => List.Perm d' d
  | .seq vs, .seq vs' => vs' = vs
  | .scalar v, .scalar v' => v' = v
  | _, _ => False

/-- A json file as it is written and as it is loaded. -/
def SameJson (wrote read : PyDict String (List RowIn)) : Prop :=
  List.Perm (PyDict.keys read) (PyDict.keys wrote) ∧
    ∀ t rows, PyDict.get? wrote t = some rows → ∃ rows', PyDict.get? read t = some rows' ∧
      Pairwise2 SameJsonRow rows rows'

/-- What the csv module, `str` and `float` have to do for csv files to carry cells: as for all text files, and the text of
NaN reads as NaN and the text of a datetime is not empty. -/
structure CsvTextOK (env : TextEnv) : Prop extends TextOK env where
  nan : env.float (env.text .nan) = some none
  dtText : ∀ d, env.text (.dt d) ≠ ""

/-- The cell is not reinterpreted on reading: cells of datetime fields are datetimes or null, cells of other fields are no
datetimes, and under `automunge_multitype_fields` cells of fields for numbers and text are no Booleans and no text that
reads as a number. -/
def ReadAsIs (env : TextEnv) (cf : IOConf) (t f : String) (x : Cell) : Prop :=
  match typeOf cf.types t f with
  | none => ∀ d, x ≠ .dt d
  | some td =>
    if td.datetime = true then (∃ d, x = .dt d) ∨ Null x
    else (∀ d, x ≠ .dt d) ∧ (cf.automunge = true → td.numberAllowed = true → td.strings ≠ .oneOf [] →
      (∀ b, x ≠ .bool b) ∧ ∀ s, x = .str s → env.float s = none)

/-- The cell does not get in the way of the infinity flag: with a numeric flag it is infinite or strictly between minus the
flag and the flag if it is a number, with the flag `None` it is valid and the field allows no two infinities. -/
def FlagSafe (env : TextEnv) (cf : IOConf) (t f : String) (x : Cell) : Prop :=
  match cf.flag with
  | .na => True
  | .num q => 0 < q ∧ ∀ y, x = .num y → y = .pinf ∨ y = .ninf ∨ (XLt (.fin (-q)) y ∧ XLt y (.fin q))
  | .none => ¬ NoneFlagAmbiguous env cf t f ∧ ValidAt env cf t f x

/-- A parameter value that the adjustment after reading leaves alone: the parameter is no datetime, the value is no text
that reads as a number and no Boolean if the parameter allows numbers, and the empty text is valid if it is used. -/
def ParamAsIs (env : TextEnv) (params : Params) (k v : Cell) : Prop :=
  match paramType params k with
  | none => (∀ b, v ≠ .bool b) ∧ ∀ s, v = .str s → env.float s = none
  | some td => td.datetime = false ∧ (v = .str "" → Valid env.parses td v) ∧
      (td.numberAllowed = true → (∀ b, v ≠ .bool b) ∧ ∀ s, v = .str s → env.float s = none)

/-- A cell outside the adjusted parameters table that survives a json file. -/
def JsonSafe (env : TextEnv) (cf : IOConf) (t f : String) (x : Cell) : Prop :=
  (∀ o, x ≠ .other o) ∧
    if t = "parameters" then (∀ d, x ≠ .dt d) ∧ cf.flag = .na
    else ReadAsIs env cf t f x ∧ FlagSafe env cf t f x

/-- An entry of the parameters table that survives a json file: the name is text, a number or a Boolean, the value is one
that is left alone or a datetime of a datetime parameter. -/
def JsonParam (env : TextEnv) (params : Params) (k v : Cell) : Prop :=
  ((∃ s, k = .str s) ∨ (∃ x, k = .num x) ∨ ∃ b, k = .bool b) ∧
    (((∀ d, v ≠ .dt d) ∧ v ≠ .nan ∧ (∀ o, v ≠ .other o) ∧ ParamAsIs env params k v) ∨
      ∃ d td, v = .dt d ∧ paramType params k = some td ∧ td.datetime = true)

/-- Does a csv reader try to read text of the field as a number: the type allows numbers, or there is no type and the
default value is a number. -/
def CsvNumField (cf : IOConf) (dv : Defaults) (t f : String) : Prop :=
  match typeOf cf.types t f with
  | none => ∃ v, dv t f = some v ∧ v.numericish = true
  | some td => td.numberAllowed = true

/-- Does a csv reader take empty text of the field for `None`: the type is nullable, or there is no type and the default
value is `None`. -/
def CsvNullField (cf : IOConf) (dv : Defaults) (t f : String) : Prop :=
  match typeOf cf.types t f with
  | none => dv t f = some .none
  | some td => td.nullable = true

/-- A cell outside the adjusted parameters table that survives a csv file: it survives a json file, and numbers are in
fields that are read as numbers, `None` in fields whose empty text is read as `None`, text is not the empty text of such
a field or of one where it could stand for an infinity, and no text or datetime reads as a number in a field that is read
as numbers; it is no Boolean. -/
def CsvSafe (env : TextEnv) (cf : IOConf) (dv : Defaults) (t f : String) (x : Cell) : Prop :=
  JsonSafe env cf t f x ∧
    match x with
    | .num _ => CsvNumField cf dv t f
    | .nan => CsvNumField cf dv t f
    | .none => CsvNullField cf dv t f
    | .str s => (CsvNumField cf dv t f → env.float s = none) ∧
        (s = "" → ¬ CsvNullField cf dv t f ∧ cf.flag ≠ .none)
    | .dt d => CsvNumField cf dv t f → env.float (env.text (.dt d)) = none
    | .bool _ => False
    | .other _ => False

/-- An entry of the parameters table that survives a text file. -/
def TextParam (env : TextEnv) (params : Params) (k v : Cell) : Prop :=
  (∃ s, k = .str s) ∧
    match v with
    | .num _ => ∀ td, paramType params k = some td → Valid env.parses td v
    | .str s => match paramType params k with
      | none => env.float s = none
      | some td => td.datetime = false ∧ Valid env.parses td v ∧ (td.numberAllowed = true → env.float s = none)
    | .none => ∃ td, paramType params k = some td ∧ Valid env.parses td v ∧ ¬ Valid env.parses td (.str "")
    | .dt _ => ∃ td, paramType params k = some td ∧ td.datetime = true
    | _ => False

end Ticdat.Spec
