import Verif.Spec.Frame
import Verif.Spec.CellIO
import Verif.Model.PanRead
/-! # Specifications for reading and writing `PanDat` objects -/
namespace Ticdat.Spec

/-- A column of the file, or a default value, if these are to be used. -/
def Found (c : TabClass) (fill : Bool) (v : Frame) (f : String) : Prop :=
  Label.name f ∈ v.cols ∨ (fill = true ∧ f ∈ PyDict.keys c.defaults)

/-- The value of a field for a row of the file: its column, or the default value. -/
def fileCell (c : TabClass) (v : Frame) (r : List Cell × List Cell) (f : String) : Cell :=
  if Label.name f ∈ v.cols then colCell v r (.name f) else (PyDict.get? c.defaults f).getD (.num (.fin 0))

/-- `missing` lists the fields of the table that are no columns. -/
def MissingFields (c : TabClass) (v : Frame) (missing : List String) : Prop :=
  missing.Nodup ∧ ∀ f, f ∈ missing ↔ f ∈ c.fields ∧ Label.name f ∉ v.cols

/-- The table with these fields and these rows. -/
def plainFrame (fields : List String) (rows : List (List Cell)) : Frame := ⟨[], fields.map .name, rows.map (fun r => ([], r))⟩

/-- The values in a column. -/
def column (v : Frame) (f : String) : List Cell := v.rows.map (fun r => colCell v r (.name f))

/-- A value that reading leaves alone but for the infinities: in a field of datetimes it is a datetime, or null, which the
libraries do not take for a date; in a field that is both text and number it is no Boolean and no text that reads as a
number. -/
def PanAsIs (env : TextEnv) (cf : IOConf) (t f : String) (x : Cell) : Prop :=
  ∀ td, typeOf cf.types t f = some td →
    (td.datetime = true → (∃ d, x = .dt d) ∨ (Null x ∧ env.date .none = none)) ∧
    (td.datetime = false → cf.automunge = true → td.numberAllowed = true → td.strings ≠ .oneOf [] →
      (∀ b, x ≠ .bool b) ∧ ∀ s, x = .str s → env.float s = none)

/-- Values of a field that are the same after writing and reading: reading leaves them alone; with the flag `None` the values
are valid and the flag is not ambiguous; with a numeric flag the finite numbers are smaller than the flag. -/
def Survives (env : TextEnv) (cf : IOConf) (t f : String) (col : List Cell) : Prop :=
  (∀ x ∈ col, PanAsIs env cf t f x) ∧
  (cf.flag = .none → ¬ NoneFlagAmbiguous env cf t f ∧ ∀ x ∈ col, ValidAt env cf t f x) ∧
  (∀ q, cf.flag = .num q → 0 < q ∧ ∀ x ∈ col, ∀ a : Rat, x = .num (.fin a) → -q < a ∧ a < q)

/-- Values of a field that json can hold: datetimes only in a field of datetimes, where their text reads as that datetime,
and no text "none" (in any case) in a field of nullable text. -/
def PanJsonSafe (env : TextEnv) (lower : String → String) (cf : IOConf) (t f : String) (col : List Cell) : Prop :=
  ∀ x ∈ col, (∀ d, x = .dt d → env.date (.str (env.text (.dt d))) = some d ∧
      ∃ td, typeOf cf.types t f = some td ∧ td.datetime = true) ∧
    ∀ td, typeOf cf.types t f = some td → td.nullable = true → td.numberAllowed = false →
      ∀ s, x = .str s → lower s ≠ "none"

/-- The same value, or both null. -/
def SameOrNull (x y : Cell) : Prop := x = y ∨ (Null x ∧ Null y)

/-- json has one null. -/
def nullAsNone : Cell → Cell
  | .nan => .none
  | x => x

/-- A file that holds these columns, and perhaps others, in some order. -/
structure Holds (c : TabClass) (w file : Frame) : Prop where
  ok : FrameOK file
  index : file.index = []
  cols : ∀ f ∈ c.fields, Label.name f ∈ file.cols
  same : ∀ f ∈ c.fields, column file f = column w f

/-- The fields of a table and nothing else: the columns in order of the schema, the rows in order. -/
def fieldsOf (c : TabClass) (v : Frame) : Frame :=
  plainFrame c.fields (v.rows.map (fun r => c.fields.map (fun f => colCell v r (.name f))))

/-- Null cells of the field are not read as infinity: the flag is not `None`, or the field has no type that allows exactly one
infinity and no null. -/
def NullStaysNull (env : TextEnv) (cf : IOConf) (t f : String) : Prop :=
  cf.flag ≠ .none ∨ ∀ td, typeOf cf.types t f = some td → td.numberAllowed = true → ¬ Valid env.parses td .none →
    ¬ Valid env.parses td (.num .pinf) ∧ ¬ Valid env.parses td (.num .ninf)

/-- The frame followed by `n` blank rows. -/
def withBlank (v : Frame) (n : Nat) : Frame :=
  { v with rows := v.rows ++ List.replicate n (v.index.map (fun _ => Cell.nan), v.cols.map (fun _ => Cell.nan)) }

end Ticdat.Spec
