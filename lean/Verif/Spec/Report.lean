import Verif.Spec.PanTypes
import Verif.Spec.RowPred
import Verif.Model.Report
/-! # What the report of integrity errors should list -/
namespace Ticdat.Spec

/-- Every DataFrame has the columns of its table, in the order of the schema, and no others. -/
def ReportFrames (s : Schema) (tabs : String → PTable) : Prop :=
  ∀ t ∈ PyDict.keys s, (tabs t).cols = s.pks t ++ s.dfs t ∧ ∀ r ∈ (tabs t).rows, r.length = (tabs t).cols.length

/-- The cell of row `i` of table `t` in column `f`. -/
def cellAt (tabs : String → PTable) (t : String) (i : Nat) (f : String) : Option Cell :=
  ((tabs t).rows[i]?).bind (fun cells => ((tabs t).cols.zip cells).lookup f)

/-- Row `i` of table `t` repeats the primary key of an earlier row. -/
def DuplicateRow (s : Schema) (tabs : String → PTable) (t : String) (i : Nat) : Prop :=
  t ∈ PyDict.keys s ∧ s.pks t ≠ [] ∧ i < (tabs t).rows.length ∧
    ∃ j, j < i ∧ ∀ f ∈ s.pks t, cellAt tabs t j f = cellAt tabs t i f

/-- Row `i` of table `t` has a bad value in the field `f`. -/
def BadValueRow (parses : Cell → Bool) (s : Schema) (dts : DataTypes) (tabs : String → PTable) (t f : String) (i : Nat) : Prop :=
  ∃ v, cellAt tabs t i f = some v ∧ BadCell parses s dts t f v

/-- Row `i` of the native table has no parent. -/
def OrphanRow (tabs : String → PTable) (k : FK) (i : Nat) : Prop :=
  i < (tabs k.native).rows.length ∧ ∀ j, j < (tabs k.foreign).rows.length →
    ∃ p ∈ k.mapping, cellAt tabs k.native i p.1 ≠ cellAt tabs k.foreign j p.2

/-- The rows of a table with their positions, as predicates see them. -/
def placed (tabs : String → PTable) (t : String) : List (Nat × Rec Cell) :=
  (List.range (tabs t).rows.length).map (fun i => (i, cellAt tabs t i))

/-- The fields by which the report identifies a row: the primary key, or all fields if there is none. -/
def identifiers (s : Schema) (t : String) : List String := match s.pks t with | [] => s.dfs t | pks => pks

/-- The number of identifying fields in the report. -/
def IsWidth (s : Schema) (n : Nat) : Prop :=
  (∀ t ∈ PyDict.keys s, (identifiers s t).length ≤ n) ∧ ∃ t ∈ PyDict.keys s, (identifiers s t).length = n

/-- The identifying cells of a row, and `None` in the remaining fields of the report. -/
def idCells (s : Schema) (tabs : String → PTable) (n : Nat) (t : String) (i : Nat) : List Cell :=
  ((identifiers s t).map (fun f => (cellAt tabs t i f).getD Cell.none) ++ List.replicate n Cell.none).take n

/-- `out` shows each of the things with property `P` once, and nothing else. -/
def ShowsOnce {A B : Type} (out : List B) (P : A → Prop) (show_ : A → B) : Prop :=
  ∃ occ : List A, occ.Nodup ∧ (∀ a, a ∈ occ ↔ P a) ∧ out = occ.map show_

/-- A predicate failure, shown. -/
def showFailure (s : Schema) (tabs : String → PTable) (n : Nat) (key : String × PName) :
    RowFail Nat → String × PName × Cell × List Cell
  | .star msg => (key.1, key.2, .str msg, List.replicate n .none)
  | .row i none => (key.1, key.2, .none, idCells s tabs n key.1 i)
  | .row i (some msg) => (key.1, key.2, .str msg, idCells s tabs n key.1 i)

end Ticdat.Spec
